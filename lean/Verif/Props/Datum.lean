import Verif.Spec.Datum
import Verif.Props.FreeSurface
import Verif.Props.Diffusion
import Verif.Props.Mirror
import Verif.Props.Timestep

/-!
# C82: the level from which elevations are measured does not matter
-/

set_option linter.unusedSectionVars false
set_option linter.unusedSimpArgs false

namespace Verif.Props

open Verif.Model Verif.Lemmas Verif.Spec

variable {K : Type*} [Field K] [LinearOrder K] [IsStrictOrderedRing K] {σ : Type*} {L W m : ℕ}

/-! ### Water -/

lemma nbrs_raise [NeZero L] [NeZero W] (k : K) (f : Grid L W K) (c : Cell L W) (d : Fin 9) :
    nbrs (raise k f) c d = nbrs f c d + k := by
  rw [nbrs_seen, nbrs_seen]
  rfl

/-- C82: the weights of the water parcels are the same. -/
theorem C82_weights [NeZero L] [NeZero W] (k : K) (P : Params L W m K) (S : State L W K) :
    waterWeightArray P (raiseState k S) = waterWeightArray P S := by
  have h : ∀ c, weightSfc ((raiseState k S).stage c) (nbrs (raiseState k S).stage c) P.s2 =
      weightSfc (S.stage c) (nbrs S.stage c) P.s2 := by
    intro c
    funext d
    unfold weightSfc
    have e1 : (raiseState k S).stage c = S.stage c + k := rfl
    have e2 : nbrs (raiseState k S).stage c d = nbrs S.stage c d + k := nbrs_raise k S.stage c d
    rw [e1, e2, add_sub_add_right_eq_sub]
  have hf : waterWeights (raiseState k S).depth (raiseState k S).stage P.modWater P.cellType (raiseState k S).qx
      (raiseState k S).qy P.s2 P.s05 P.dryDepth P.gamma P.pwWater =
      waterWeights S.depth S.stage P.modWater P.cellType S.qx S.qy P.s2 P.s05 P.dryDepth P.gamma P.pwWater := by
    funext c
    unfold waterWeights
    rw [h c]
    rfl
  unfold waterWeightArray
  simp only [hf]

lemma waterEnv_raise (k : K) (P : Params L W m K) (S : State L W K) (w : Grid L W (Fin 9 → K)) :
    waterEnv P (raiseState k S) w = waterEnv P S w := by
  unfold waterEnv
  congr 1
  funext c
  show S.stage c + k - (S.HSL + k) = _
  ring

/-- Two states of the loop over a walk that differ by the level. -/
def RaisedSfc (k : K) (nx : Cell L W) (s t : SfcState L W K) : Prop :=
  t.inOcean = s.inOcean ∧ t.dH = s.dH ∧ t.hnew nx = s.hnew nx + k ∧ t.acc.visit = s.acc.visit ∧
    ∀ c, t.acc.sum c = s.acc.sum c + k * s.acc.visit c

lemma backStep_raise (k : K) {E F : SfcEnv L W K} (hE : F = { E with HSL := E.HSL + k }) (nx c : Cell L W)
    {s t : SfcState L W K} (h : RaisedSfc k nx s t) : RaisedSfc k c (backStep E nx c s) (backStep F nx c t) := by
  subst hE
  obtain ⟨h1, h2, h3, h4, h5⟩ := h
  have key : ∀ s1 t1 : SfcState L W K, RaisedSfc k nx s1 t1 →
      RaisedSfc k c { s1 with
        hnew := Function.update s1.hnew c (s1.hnew nx + s1.dH)
        acc := { visit := Function.update s1.acc.visit c (s1.acc.visit c + 1)
                 sum := Function.update s1.acc.sum c (s1.acc.sum c + (s1.hnew nx + s1.dH)) } }
        { t1 with
        hnew := Function.update t1.hnew c (t1.hnew nx + t1.dH)
        acc := { visit := Function.update t1.acc.visit c (t1.acc.visit c + 1)
                 sum := Function.update t1.acc.sum c (t1.acc.sum c + (t1.hnew nx + t1.dH)) } } := by
    rintro s1 t1 ⟨g1, g2, g3, g4, g5⟩
    refine ⟨g1, g2, ?_, ?_, ?_⟩
    · simp only [Function.update_self, g2, g3]; ring
    · simp only [g4]
    · intro x
      by_cases hx : x = c
      · subst hx
        simp only [Function.update_self, g2, g3, g5]; ring
      · simp only [Function.update_of_ne hx, g5]
  unfold backStep
  simp only [h1]
  apply key
  by_cases hm : c.1 ≠ nx.1 ∨ c.2 ≠ nx.2
  · rw [if_pos hm, if_pos hm]
    cases s.inOcean
    · simp only [Bool.false_eq_true, if_false]
      by_cases hu : E.uw c = 0
      · rw [if_pos hu, if_pos hu]; exact ⟨rfl, rfl, h3, h4, h5⟩
      · rw [if_neg hu, if_neg hu]; exact ⟨rfl, rfl, h3, h4, h5⟩
    · simp only [if_true]
      by_cases hu : E.uw c > E.u0 * (1 / 2) ∨ E.depth c < (1 / 10) * E.h0
      · rw [if_pos hu, if_pos hu]; exact ⟨rfl, h2, h3, h4, h5⟩
      · rw [if_neg hu, if_neg hu]; exact ⟨h1, h2, h3, h4, h5⟩
  · rw [if_neg hm, if_neg hm]; exact ⟨h1, h2, h3, h4, h5⟩

/-- The accumulators with a level lower by `k`. -/
def raiseAcc (k : K) (a : SfcAcc L W K) : SfcAcc L W K :=
  { visit := a.visit, sum := fun c => a.sum c + k * a.visit c }

lemma backWalk_raise (k : K) {E F : SfcEnv L W K} (hE : F = { E with HSL := E.HSL + k }) :
    ∀ (cs : List (Cell L W)) (nx : Cell L W) {s t : SfcState L W K}, RaisedSfc k nx s t →
      (backWalk F nx cs t).acc = raiseAcc k (backWalk E nx cs s).acc := by
  intro cs
  induction cs with
  | nil =>
    rintro nx s t ⟨-, -, -, h4, h5⟩
    show t.acc = raiseAcc k s.acc
    unfold raiseAcc
    have : t.acc = ⟨t.acc.visit, t.acc.sum⟩ := rfl
    rw [this, h4]
    congr 1
    funext c
    exact h5 c
  | cons c cs ih =>
    intro nx s t h
    exact ih c (backStep_raise k hE nx c h)

lemma sfcParcels_raise (k : K) {E F : SfcEnv L W K} (hE : F = { E with HSL := E.HSL + k }) :
    ∀ (ps : List (List ℤ × Bool)) (a : SfcAcc L W K),
      sfcParcels F ps (raiseAcc k a) = (sfcParcels E ps a).map (raiseAcc k) := by
  have hp : ∀ (walk : List ℤ) (flag : Bool) (a : SfcAcc L W K),
      sfcParcel F walk flag (raiseAcc k a) = (sfcParcel E walk flag a).map (raiseAcc k) := by
    intro walk flag a
    unfold sfcParcel
    cases walkCells L W walk with
    | error e => rfl
    | ok cs =>
      simp only
      cases cs.reverse with
      | nil => rfl
      | cons last rest =>
        have hc : F.cellType = E.cellType := by rw [hE]
        simp only [hc]
        split_ifs
        · simp only [Except.map]
          congr 1
          apply backWalk_raise k hE
          refine ⟨rfl, rfl, ?_, rfl, fun c => rfl⟩
          simp only [Function.update_self, hE]
        · rfl
  intro ps
  induction ps with
  | nil => intro a; rfl
  | cons p ps ih =>
    intro a
    obtain ⟨walk, flag⟩ := p
    simp only [sfcParcels, hp]
    cases sfcParcel E walk flag a with
    | error e => rfl
    | ok a1 => exact ih a1

/-- C82: the elevations found along the walks of parcels are higher by `k`. -/
theorem C82_walks (k : K) (P : Params L W m K) (S : State L W K) (ps : List (List ℤ × Bool)) :
    accumulateFreeSurface (sfcEnv P (raiseState k S)) ps =
      (accumulateFreeSurface (sfcEnv P S) ps).map (raiseAcc k) := by
  have := sfcParcels_raise k (E := sfcEnv P S) (F := sfcEnv P (raiseState k S)) rfl ps ⟨fun _ => 0, fun _ => 0⟩
  rw [accumulateFreeSurface, accumulateFreeSurface, ← this]
  congr 1
  unfold raiseAcc
  congr 1
  funext c
  simp

lemma computeHnew_raise (k : K) (eta depth : Grid L W K) (a : SfcAcc L W K) (HSL : K) :
    computeHnew (raise k eta) depth (raiseAcc k a) (HSL + k) = raise k (computeHnew eta depth a HSL) := by
  funext c
  unfold computeHnew raise raiseAcc
  simp only
  have h1 : (if a.visit c > 0 then (a.sum c + k * a.visit c) / a.visit c else eta c + k + depth c) =
      (if a.visit c > 0 then a.sum c / a.visit c else eta c + depth c) + k := by
    split_ifs with h
    · field_simp
    · ring
  rw [h1]
  generalize (if a.visit c > 0 then a.sum c / a.visit c else eta c + depth c) = z
  simp only [add_lt_add_iff_right]
  split_ifs <;> simp_all

/-- C82: the smoothed surface is higher by `k`. -/
theorem C82_smooth [NeZero L] [NeZero W] (k : K) (cellType : Grid L W ℤ) (C : K) (n : ℕ) (H : Grid L W K) :
    smooth cellType C n (raise k H) = raise k (smooth cellType C n H) := by
  induction n generalizing H with
  | zero => rfl
  | succ n ih =>
    have hp : smoothPass cellType C (raise k H) = raise k (smoothPass cellType C H) := by
      funext c
      unfold smoothPass
      simp only [nbrs_raise]
      by_cases hc : cellType c ≠ -1
      · rw [if_pos hc]
        unfold raise
        simp only
        rw [if_pos hc]
        set inv : Fin 9 → Bool := fun d => decide (nbrs cellType c d = -2) || decide (d = 4) with hinv
        set N : ℕ := (Finset.univ.filter (fun d => (!inv d) = true)).card with hN
        by_cases h : N > 0
        · rw [if_pos h, if_pos h]
          have hN0 : (N : K) ≠ 0 := by exact_mod_cast h.ne'
          have hs : ∑ d, (if inv d = true then 0 else nbrs H c d + k) =
              ∑ d, (if inv d = true then 0 else nbrs H c d) + (N : K) * k := by
            have : ∀ d, (if inv d = true then 0 else nbrs H c d + k) =
                (if inv d = true then 0 else nbrs H c d) + (if (!inv d) = true then k else 0) := by
              intro d
              cases inv d <;> simp
            simp only [this, Finset.sum_add_distrib]
            rw [← Finset.sum_filter, Finset.sum_const, nsmul_eq_mul]
          rw [hs]
          field_simp
          ring
        · rw [if_neg h, if_neg h]
      · rw [if_neg hc]
        unfold raise
        simp only
        rw [if_neg hc]
    show smooth cellType C n (smoothPass cellType C (raise k H)) = raise k (smooth cellType C n (smoothPass cellType C H))
    rw [hp, ih]

/-- C82: flooded cells are flooded likewise, if no dry cell is below the level of zero. -/
theorem C82_flooding_partial [NeZero L] [NeZero W] (hL : 2 ≤ L) (hW : 2 ≤ W) (k : K) (eta depth stage : Grid L W K)
    (dry : K) (h : ∀ c, depth c ≤ dry → 0 ≤ eta c ∧ 0 ≤ eta c + k) :
    floodingCorrection (raise k eta) depth (raise k stage) dry = raise k (floodingCorrection eta depth stage dry) := by
  funext c
  by_cases hd : depth c ≤ dry
  · obtain ⟨h0, h1⟩ := h c hd
    have h1' : 0 ≤ raise k eta c := h1
    by_cases hw : ∃ n, Adjacent c n ∧ dry < depth n ∧ eta c < stage n
    · have g0 := C18_flooded_partial (stage := stage) hL hW c h0 hd hw
      have g1 := C18_flooded_partial (eta := raise k eta) (stage := raise k stage) hL hW c h1' hd (by
        obtain ⟨n, a, b, e⟩ := hw
        exact ⟨n, a, b, by unfold raise; linarith⟩)
      have g2 : IsGreatest {z | ∃ n, Adjacent c n ∧ dry < depth n ∧ z = raise k stage n}
          (raise k (floodingCorrection eta depth stage dry) c) := by
        obtain ⟨⟨n, a, b, e⟩, u⟩ := g0
        refine ⟨⟨n, a, b, by unfold raise; rw [e]⟩, ?_⟩
        rintro z ⟨n', a', b', rfl⟩
        have := u ⟨n', a', b', rfl⟩
        unfold raise
        linarith
      exact g1.unique g2
    · push Not at hw
      rw [C18_unchanged_partial (eta := raise k eta) (stage := raise k stage) hL hW c h1'
        (fun n _ a b => by have := hw n a b; unfold raise; linarith)]
      unfold raise
      rw [C18_unchanged_partial hL hW c h0 (fun n _ a b => hw n a b)]
  · have e : ∀ (eta stage : Grid L W K), floodingCorrection eta depth stage dry c = stage c := by
      intro eta stage
      unfold floodingCorrection
      simp only
      rw [if_pos (not_le.1 hd), if_neg (lt_irrefl _)]
    unfold raise
    rw [e, e]

/-- No dry cell is below the level of zero, for both levels. -/
def DryAbove (k : K) (P : Params L W m K) (S : State L W K) : Prop :=
  ∀ c, S.depth c ≤ P.dryDepth → 0 ≤ S.eta c ∧ 0 ≤ S.eta c + k

/-- C82: the new surface is higher by `k`, if no dry cell is below the level of zero. -/
theorem C82_surface_partial [NeZero L] [NeZero W] (hL : 2 ≤ L) (hW : 2 ≤ W) (k : K) (P : Params L W m K)
    (S : State L W K) (h : DryAbove k P S) (ps : List WParcel) :
    computeFreeSurface P (raiseState k S) ps = (computeFreeSurface P S ps).map (raise k) := by
  unfold computeFreeSurface
  rw [C82_walks]
  cases accumulateFreeSurface (sfcEnv P S) (ps.map fun p => (p.walk, p.flag)) with
  | error e => rfl
  | ok a =>
    simp only [Except.map]
    congr 1
    unfold finalizeFreeSurface
    simp only
    have e0 : computeHnew (raiseState k S).eta (raiseState k S).depth (raiseAcc k a) (raiseState k S).HSL =
        raise k (computeHnew S.eta S.depth a S.HSL) := computeHnew_raise k _ _ _ _
    rw [e0, C82_smooth]
    generalize smooth P.cellType P.Csmooth P.Nsmooth (computeHnew S.eta S.depth a S.HSL) = H
    have e2 : (if (raiseState k S).timeIter > 0 then fun c =>
          (1 - P.omegaSfc) * (raiseState k S).stage c + P.omegaSfc * raise k H c else (raiseState k S).stage) =
        raise k (if S.timeIter > 0 then fun c => (1 - P.omegaSfc) * S.stage c + P.omegaSfc * H c
          else S.stage) := by
      by_cases ht : S.timeIter > 0
      · rw [if_pos ht, if_pos (show (raiseState k S).timeIter > 0 from ht)]
        funext c
        show (1 - P.omegaSfc) * (S.stage c + k) + P.omegaSfc * (H c + k) = _ + k
        ring
      · rw [if_neg ht, if_neg (show ¬ (raiseState k S).timeIter > 0 from ht)]; rfl
    rw [e2]
    exact C82_flooding_partial hL hW k S.eta S.depth _ P.dryDepth h

lemma finalizeWater_raise (k : K) (P : Params L W m K) (S : State L W K) (it : ℕ) (stage : Grid L W K)
    (f : Flux L W K) : finalizeWaterIteration P (raiseState k S) it (raise k stage) f =
      raiseState k (finalizeWaterIteration P S it stage f) := by
  have h1 : stageAboveSea (raise k stage) (S.HSL + k) = raise k (stageAboveSea stage S.HSL) := by
    funext c
    exact max_add_add_right _ _ _
  have h2 : ∀ s e : Grid L W K, depthOf (raise k s) (raise k e) = depthOf s e := by
    intro s e
    funext c
    unfold depthOf raise
    rw [add_sub_add_right_eq_sub]
  have e1 : stageAboveSea (raise k stage) (raiseState k S).HSL = raise k (stageAboveSea stage S.HSL) := h1
  have e2 : depthOf (raise k (stageAboveSea stage S.HSL)) (raiseState k S).eta =
      depthOf (stageAboveSea stage S.HSL) S.eta := h2 _ _
  unfold finalizeWaterIteration
  simp only [e1, e2]
  rfl

/-- A map over the state in a result. -/
def onState (k : K) (r : State L W K × σ) : State L W K × σ := (raiseState k r.1, r.2)

/-- C82: a whole water iteration, with the same random numbers: the stage is higher by `k` and depth,
discharge and velocity are the same, if no dry cell is below the level of zero. -/
theorem C82_water_iteration_partial [NeZero L] [NeZero W] [FloorRing K] (hL : 2 ≤ L) (hW : 2 ≤ W) (g : Rng K σ)
    (k : K) (P : Params L W m K) (it : ℕ) (S : State L W K) (h : DryAbove k P S) (s : σ) :
    waterIteration g P it (raiseState k S) s = (waterIteration g P it S s).map (onState k) := by
  unfold waterIteration
  rw [C82_weights]
  cases waterWeightArray P S with
  | error e => rfl
  | ok w =>
    simp only [waterEnv_raise]
    have : (raiseState k S).ncols = S.ncols := rfl
    rw [this]
    cases runWaterIteration g (waterEnv P S w) (fun k => ((P.inlet k).val : ℤ)) P.NpWater S.ncols s with
    | error e => rfl
    | ok r =>
      obtain ⟨wst, l, n, s1⟩ := r
      simp only [C82_surface_partial hL hW k P S h]
      cases computeFreeSurface P S wst.parcels with
      | error e => rfl
      | ok stage =>
        simp only [Except.map, finalizeWater_raise]
        rfl

/-- Water surface, bed and depth above a level `b`: sea level and stage are not below `b`, and the bed is not
lower than the depth below the stage. -/
structure Above (b : K) (S : State L W K) : Prop where
  sea : b ≤ S.HSL
  stage : ∀ c, b ≤ S.stage c
  bed : ∀ c, S.stage c - S.depth c ≤ S.eta c

lemma Above.dry {b k : K} {P : Params L W m K} {S : State L W K} (h : Above b S) (h0 : P.dryDepth ≤ b)
    (hk : P.dryDepth ≤ b + k) : DryAbove k P S := by
  intro c hc
  have h1 := h.stage c
  have h2 := h.bed c
  constructor <;> linarith

lemma waterIteration_above [NeZero L] [NeZero W] [FloorRing K] {g : Rng K σ} {P : Params L W m K} {it : ℕ}
    {S S' : State L W K} {s s' : σ} {b : K} (hS : Above b S)
    (h : waterIteration g P it S s = .ok (S', s')) : Above b S' := by
  obtain ⟨w, wst, log, n, stage, -, -, -, rfl⟩ := waterIteration_ok h
  refine ⟨hS.sea, fun c => le_trans hS.sea (le_max_right _ _), fun c => ?_⟩
  show stageAboveSea stage S.HSL c - max (stageAboveSea stage S.HSL c - S.eta c) 0 ≤ S.eta c
  have := le_max_left (stageAboveSea stage S.HSL c - S.eta c) 0
  linarith

/-- C82: the whole water routing of a timestep, with the same random numbers, if sea level and stage are at
least the dry depth above the level of zero, for both levels. -/
theorem C82_water_partial [NeZero L] [NeZero W] [FloorRing K] (hL : 2 ≤ L) (hW : 2 ≤ W) (g : Rng K σ) (k b : K)
    (P : Params L W m K) (h0 : P.dryDepth ≤ b) (hk : P.dryDepth ≤ b + k) (S : State L W K) (hS : Above b S) (s : σ) :
    routeWater g P (raiseState k S) s = (routeWater g P S s).map (onState k) ∧
      ∀ S' s', routeWater g P S s = .ok (S', s') → Above b S' := by
  unfold routeWater
  generalize P.itermax = n
  generalize (0 : ℕ) = it
  induction n generalizing it S s with
  | zero =>
    refine ⟨rfl, fun S' s' h => ?_⟩
    simp only [routeWaterFrom, Except.ok.injEq, Prod.mk.injEq] at h
    rw [← h.1]; exact hS
  | succ n ih =>
    unfold routeWaterFrom
    rw [C82_water_iteration_partial hL hW g k P it S (hS.dry h0 hk)]
    cases hw : waterIteration g P it S s with
    | error e => exact ⟨rfl, fun S' s' h => by simp at h⟩
    | ok r =>
      obtain ⟨S1, s1⟩ := r
      exact ih S1 (waterIteration_above hS hw) s1 (it + 1)

/-! ### Sediment -/

lemma limitChange_raise (k V stage eta dx : K) (ero : Bool) :
    limitChange V (stage + k) (eta + k) dx ero = limitChange V stage eta dx ero := by
  unfold limitChange
  rw [add_sub_add_right_eq_sub]

lemma volumeChange_raise (k : K) (kind : Sed) (P : Params L W m K) (S : State L W K) (c : Cell L W) (res : K) :
    volumeChange kind P (raiseState k S) c res = volumeChange kind P S c res := by
  have h1 : (raiseState k S).stage c = S.stage c + k := rfl
  have h2 : (raiseState k S).eta c = S.eta c + k := rfl
  cases kind
  · unfold volumeChange sandChange
    simp only [h1, h2, limitChange_raise]
    rfl
  · unfold volumeChange mudChange
    simp only [h1, h2, limitChange_raise]
    rfl

lemma fieldsAt_raise (k : K) (kind : Sed) (P : Params L W m K) (S : State L W K) (c0 c : Cell L W) (d : Fin 9)
    (res : K) : fieldsAt kind P (raiseState k S) c0 c d res = raiseState k (fieldsAt kind P S c0 c d res) := by
  cases kind
  · unfold fieldsAt partitionSand
    simp only
    split_ifs <;> rfl
  · rfl

lemma recordDeposit_raise (k : K) (kind : Sed) (S : State L W K) (c : Cell L W) (v : K) :
    recordDeposit kind (raiseState k S) c v = raiseState k (recordDeposit kind S c v) := by
  unfold recordDeposit
  split_ifs
  · cases kind <;> rfl
  · rfl

lemma updateFields_raise (k : K) (P : Params L W m K) (S : State L W K) (c : Cell L W) (v : K) :
    updateFields P (raiseState k S) c v = raiseState k (updateFields P S c v) := by
  have h1 : (raiseState k S).eta c + v / (P.dx * P.dx) = S.eta c + v / (P.dx * P.dx) + k := by
    show S.eta c + k + _ = _
    ring
  have h2 : (raiseState k S).stage c - (S.eta c + v / (P.dx * P.dx) + k) =
      S.stage c - (S.eta c + v / (P.dx * P.dx)) := by
    show S.stage c + k - _ = _
    ring
  have h3 : Function.update (raiseState k S).eta c (S.eta c + v / (P.dx * P.dx) + k) =
      raise k (Function.update S.eta c (S.eta c + v / (P.dx * P.dx))) := by
    funext x
    unfold raise
    by_cases hx : x = c
    · subst hx; simp only [Function.update_self]
    · simp only [Function.update_of_ne hx]; rfl
  unfold updateFields
  simp only [h1, h2, h3]
  rfl

/-- The router with a level lower by `k`. -/
def raiseSt (k : K) (st : SedSt L W K) : SedSt L W K := { st with S := raiseState k st.S }

lemma sedStep_raise [NeZero L] [NeZero W] (g : Rng K σ) (k : K) (kind : Sed) (P : Params L W m K)
    (st : SedSt L W K) (px py : ℤ) (res : K) (s : σ) :
    sedStep g kind P (raiseSt k st) px py res s =
      (sedStep g kind P st px py res s).map fun x => (raiseSt k x.1, x.2.1, raiseRec k x.2.2.1, x.2.2.2) := by
  have hc : chooseNext g kind P (raiseSt k st) px py s = chooseNext g kind P st px py s := rfl
  unfold sedStep
  rw [hc]
  cases chooseNext g kind P st px py s with
  | error e => rfl
  | ok r =>
    obtain ⟨c0, d, s1⟩ := r
    have hS : (raiseSt k st).S = raiseState k st.S := rfl
    simp only [hS, fieldsAt_raise, volumeChange_raise, recordDeposit_raise, updateFields_raise]
    cases pyCell L W (px + jwalk d) (py + iwalk d) with
    | none => rfl
    | some c =>
      cases pyCell (L + 2) (W + 2) (px + jwalk d + 1) (py + iwalk d + 1) with
      | none => rfl
      | some cp => rfl

lemma sedLoop_raise [NeZero L] [NeZero W] (g : Rng K σ) (k : K) (kind : Sed) (P : Params L W m K) (n : ℕ) :
    ∀ (st : SedSt L W K) (px py : ℤ) (res : K) (s : σ), sedLoop g kind P n (raiseSt k st) px py res s =
      (sedLoop g kind P n st px py res s).map fun x =>
        (raiseSt k x.1, x.2.1, x.2.2.1.map (raiseRec k), x.2.2.2) := by
  induction n with
  | zero => intro st px py res s; rfl
  | succ n ih =>
    intro st px py res s
    rw [sedLoop, sedLoop, sedStep_raise]
    cases sedStep g kind P st px py res s with
    | error e => rfl
    | ok r =>
      obtain ⟨st1, res1, r, s1⟩ := r
      simp only [Except.map]
      have h1 : (raiseRec k r).cell = r.cell := rfl
      have h2 : (raiseRec k r).new = r.new := rfl
      rw [h1, h2, ih]
      split_ifs
      · rfl
      · cases sedLoop g kind P n st1 r.new.1 r.new.2 res1 s1 <;> rfl

lemma sedParcels_raise [NeZero L] [NeZero W] (g : Rng K σ) (k : K) (kind : Sed) (P : Params L W m K) :
    ∀ (pys : List ℤ) (st : SedSt L W K) (s : σ), sedParcels g kind P pys (raiseSt k st) s =
      (sedParcels g kind P pys st s).map fun x => (raiseSt k x.1, x.2.1.map (raiseSed k), x.2.2) := by
  intro pys
  induction pys with
  | nil => intro st s; rfl
  | cons py pys ih =>
    intro st s
    rw [sedParcels, sedParcels]
    cases pyCell L W 0 py with
    | none => rfl
    | some c =>
      have he : enterState kind P (raiseSt k st) c = raiseSt k (enterState kind P st c) := by
        cases kind <;> rfl
      simp only [he, sedLoop_raise]
      cases sedLoop g kind P P.stepmax (enterState kind P st c) 0 py P.VpSed s with
      | error e => rfl
      | ok r =>
        obtain ⟨st2, res, rs, s1⟩ := r
        simp only [Except.map, ih]
        cases sedParcels g kind P pys st2 s1 <;> rfl

/-- C82: the routing of all parcels of a kind, with the same random numbers: the parcels take the same way and
deposit and erode the same volumes, and the bed is higher by `k`. -/
theorem C82_parcels [NeZero L] [NeZero W] [FloorRing K] (g : Rng K σ) (k : K) (kind : Sed) (P : Params L W m K)
    (S : State L W K) (s : σ) : routeParcels g kind P (raiseState k S) s =
      (routeParcels g kind P S s).map fun x => (raiseState k x.1, x.2.1.map (raiseSed k), x.2.2) := by
  unfold routeParcels
  simp only
  cases getStartIndices (fun i => ((P.inlet i).val : ℤ))
      (getInletWeights (fun i => ((P.inlet i).val : ℤ)) : Fin m → K) (drawN g (numStarts kind P) s).1 with
  | none => rfl
  | some starts =>
    have := sedParcels_raise g k kind P starts ⟨S, customPad S.depth⟩ (drawN g (numStarts kind P) s).2
    have e : (⟨raiseState k S, customPad (raiseState k S).depth⟩ : SedSt L W K) =
        raiseSt k ⟨S, customPad S.depth⟩ := rfl
    simp only [e, this]
    cases sedParcels g kind P starts ⟨S, customPad S.depth⟩ (drawN g (numStarts kind P) s).2 <;> rfl

/-- No diffusion in cells at the border that are not held. -/
def StillBorder (P : Params L W m K) (qs : Grid L W K) : Prop :=
  ∀ c, ¬ Held P.cellType c → (around c).card ≠ 8 → P.diffMult * qs c = 0

/-- C82: diffusion, if there is none at the border. -/
theorem C82_diffusion_partial (k : K) (P : Params L W m K) (qs : Grid L W K) (h : StillBorder P qs) (n : ℕ)
    (eta : Grid L W K) : topoDiffusion P.cellType P.diffMult qs n (raise k eta) =
      raise k (topoDiffusion P.cellType P.diffMult qs n eta) := by
  have h1 : ∀ eta, topoDiffusion P.cellType P.diffMult qs 1 (raise k eta) =
      raise k (topoDiffusion P.cellType P.diffMult qs 1 eta) := by
    intro eta
    funext c
    unfold raise
    rw [C29_cell, C29_cell]
    have hx : ∀ n, exchange P.diffMult qs (fun c => eta c + k) c n = exchange P.diffMult qs eta c n := by
      intro n
      unfold exchange
      ring
    simp only [hx]
    by_cases hc : Held P.cellType c
    · rw [if_pos hc, if_pos hc]; ring
    · rw [if_neg hc, if_neg hc]
      by_cases h8 : (around c).card = 8
      · rw [h8]; push_cast; ring
      · have := h c hc h8
        have e : ∀ z : K, P.diffMult * ((8 - ((around c).card : K)) * (qs c * z)) = 0 := by
          intro z
          have : P.diffMult * ((8 - ((around c).card : K)) * (qs c * z)) =
              (P.diffMult * qs c) * ((8 - ((around c).card : K)) * z) := by ring
          rw [this, h c hc h8, zero_mul]
        rw [e, e]; ring
  induction n generalizing eta with
  | zero => rfl
  | succ n ih =>
    show topoDiffusion P.cellType P.diffMult qs n (topoDiffusion P.cellType P.diffMult qs 1 (raise k eta)) =
      raise k (topoDiffusion P.cellType P.diffMult qs n (topoDiffusion P.cellType P.diffMult qs 1 eta))
    rw [h1, ih]

/-- C82: the sediment routing of a timestep, if there is no diffusion at the border. -/
theorem C82_sediment_partial [NeZero L] [NeZero W] [FloorRing K] (g : Rng K σ) (k : K) (P : Params L W m K)
    (S : State L W K) (s : σ)
    (hb : ∀ S1 logs s1, routeParcels g .sand P (initSediment S) s = .ok (S1, logs, s1) → StillBorder P S1.qs) :
    routeSediment g P (raiseState k S) s = (routeSediment g P S s).map fun x =>
      (raiseState k x.1, x.2.1.map (raiseSed k), x.2.2.1.map (raiseSed k), x.2.2.2) := by
  unfold routeSediment
  have e0 : initSediment (raiseState k S) = raiseState k (initSediment S) := rfl
  rw [e0, C82_parcels]
  cases hp : routeParcels g .sand P (initSediment S) s with
  | error e => rfl
  | ok r =>
    obtain ⟨S1, sand, s1⟩ := r
    simp only [Except.map]
    have hd := C82_diffusion_partial k P S1.qs (hb S1 sand s1 hp) P.Ncross S1.eta
    have hd' : topoDiffusion P.cellType P.diffMult (raiseState k S1).qs P.Ncross (raiseState k S1).eta =
        raise k (topoDiffusion P.cellType P.diffMult S1.qs P.Ncross S1.eta) := hd
    rw [hd']
    generalize topoDiffusion P.cellType P.diffMult S1.qs P.Ncross S1.eta = D
    have e1 : ({ raiseState k S1 with eta := raise k D } : State L W K) = raiseState k { S1 with eta := D } := rfl
    rw [e1, C82_parcels]
    cases routeParcels g .mud P { S1 with eta := D } s1 <;> rfl

/-! ### The end of a timestep -/

lemma applySubsidence_raise (k : K) (P : Params L W m K) (S : State L W K) :
    applySubsidence P (raiseState k S) = raiseState k (applySubsidence P S) := by
  have ht : (raiseState k S).time = S.time := rfl
  have he : (fun c => (raiseState k S).eta c - P.sigma c) = raise k (fun c => S.eta c - P.sigma c) := by
    funext c
    show S.eta c + k - _ = S.eta c - _ + k
    ring
  unfold applySubsidence
  rw [ht, he]
  split_ifs <;> rfl

/-- C82: the composition of the bed and the layer that is mixed are the same. -/
theorem C82_sand_fraction (k : K) (P : Params L W m K) (eta0 : Grid L W K) (S : State L W K) :
    computeSandFrac P (raise k eta0) (raiseState k S) = raiseState k (computeSandFrac P eta0 S) := by
  have h1 : ∀ c, (raiseState k S).eta c - raise k eta0 c = S.eta c - eta0 c := by
    intro c
    show S.eta c + k - (eta0 c + k) = _
    ring
  have h2 : ∀ c, ((raiseState k S).eta c < raise k eta0 c - P.actThick) = (S.eta c < eta0 c - P.actThick) := by
    intro c
    show (S.eta c + k < eta0 c + k - P.actThick) = _
    rw [add_sub_right_comm, add_lt_add_iff_right]
  have h3 : ∀ c, ((raiseState k S).eta c ≥ raise k eta0 c - P.actThick) = (S.eta c ≥ eta0 c - P.actThick) := by
    intro c
    show (S.eta c + k ≥ eta0 c + k - P.actThick) = _
    rw [add_sub_right_comm, ge_iff_le, add_le_add_iff_right]
  unfold computeSandFrac
  simp only [h1, h2, h3]
  rfl

/-- C82: the end of a timestep, if no dry cell is below the level of zero. -/
theorem C82_finalize_partial [NeZero L] [NeZero W] (hL : 2 ≤ L) (hW : 2 ≤ W) (k : K) (P : Params L W m K)
    (eta0 : Grid L W K) (S : State L W K) (h : DryAbove k P S) :
    finalizeTimestep P (raise k eta0) (raiseState k S) = raiseState k (finalizeTimestep P eta0 S) := by
  have hf := C82_flooding_partial hL hW k S.eta S.depth S.stage P.dryDepth h
  have e1 : floodingCorrection (raiseState k S).eta (raiseState k S).depth (raiseState k S).stage P.dryDepth =
      raise k (floodingCorrection S.eta S.depth S.stage P.dryDepth) := hf
  unfold finalizeTimestep
  simp only [e1]
  generalize floodingCorrection S.eta S.depth S.stage P.dryDepth = F
  have e2 : (fun c => max (raise k F c) (raiseState k S).HSL) = raise k (fun c => max (F c) S.HSL) := by
    funext c
    exact max_add_add_right _ _ _
  have e2' : ∀ c, max (raise k F c) (raiseState k S).HSL = max (F c) S.HSL + k := fun c => congrFun e2 c
  have e3 : (fun c => max (max (raise k F c) (raiseState k S).HSL - (raiseState k S).eta c) 0) =
      fun c => max (max (F c) S.HSL - S.eta c) 0 := by
    funext c
    rw [e2']
    show max (_ + k - (S.eta c + k)) 0 = _
    rw [add_sub_add_right_eq_sub]
  have e4 : assign (raiseState k S).eta (isInlet P.inlet) (fun c => max (raise k F c) (raiseState k S).HSL - P.h0) =
      raise k (assign S.eta (isInlet P.inlet) (fun c => max (F c) S.HSL - P.h0)) := by
    funext c
    have e := e2' c
    by_cases hi : isInlet P.inlet c = true
    · simp only [assign, raise, hi, if_true]
      unfold raise at e
      rw [e]; ring
    · simp only [assign, raise, hi, Bool.false_eq_true, if_false]
      rfl
  rw [e2, e3, e4]
  have e5 := C82_sand_fraction k P eta0 { S with
    stage := fun c => max (F c) S.HSL
    depth := assign (fun c => max (max (F c) S.HSL - S.eta c) 0) (isInlet P.inlet) (fun _ => P.h0)
    eta := assign S.eta (isInlet P.inlet) (fun c => max (F c) S.HSL - P.h0) }
  unfold raiseState at e5 ⊢
  simp only at e5 ⊢
  rw [e5]
  simp only
  congr 1
  ring

/-! ### A timestep and a run -/

/-- What is asked of the fields of a timestep at the end of the sediment routing: no diffusion at the border, and
no dry cell below the level of zero. -/
structure LevelFree (k : K) (P : Params L W m K) (l : StepLog L W K) : Prop where
  border : StillBorder P l.routed.qs
  dry : DryAbove k P (applySubsidence P l.routed)

/-- C82: a whole timestep with the same random numbers. Parcels take the same way and move the same volumes; bed,
stage and sea level are higher by `k` and all else is the same. Asked: sea level and stage at the beginning at least
the dry depth above zero for both levels, and `LevelFree` of what happens. -/
theorem C82_timestep_partial [NeZero L] [NeZero W] [FloorRing K] (hL : 2 ≤ L) (hW : 2 ≤ W) {g : Rng K σ} (k b : K)
    {P : Params L W m K} (h0 : P.dryDepth ≤ b) (hk : P.dryDepth ≤ b + k) {S S' : State L W K} (hS : Above b S)
    {s s' : σ} {l : StepLog L W K} (h : timestep g P S s = .ok (S', l, s')) (hl : LevelFree k P l) :
    timestep g P (raiseState k S) s = .ok (raiseState k S', raiseLog k l, s') := by
  obtain ⟨s1, h1, h2, h3, h4⟩ := timestep_ok h
  have w := (C82_water_partial hL hW g k b P h0 hk S hS s).1
  rw [h1] at w
  have hq : ∀ S1 logs s2, routeParcels g .sand P (initSediment l.watered) s1 = .ok (S1, logs, s2) →
      StillBorder P S1.qs := by
    intro S1 logs s2 hp
    obtain ⟨S1', s2', p1, p2⟩ := routeSediment_ok h2
    rw [hp] at p1
    simp only [Except.ok.injEq, Prod.mk.injEq] at p1
    obtain ⟨rfl, -, rfl⟩ := p1
    have := C31_mud p2
    have hb := hl.border
    rw [this] at hb
    exact hb
  have r := C82_sediment_partial g k P l.watered s1 hq
  rw [h2] at r
  have f : finalizeTimestep P (raiseState k S).eta (applySubsidence P (raiseState k l.routed)) =
      raiseState k (finalizeTimestep P S.eta (applySubsidence P l.routed)) := by
    rw [applySubsidence_raise]
    exact C82_finalize_partial hL hW k P S.eta _ hl.dry
  unfold timestep
  rw [w]
  simp only [Except.map, onState, r, f]
  subst h3
  rw [h4]
  rfl

/-- A timestep keeps sea level, stage and bed above the level, if the sea level does not fall. -/
lemma timestep_above [NeZero L] [NeZero W] [FloorRing K] {g : Rng K σ} {b : K} {P : Params L W m K} (h0 : 0 ≤ P.h0)
    (hr : 0 ≤ P.SLR * P.dt) {S S' : State L W K} (hS : Above b S) {s s' : σ} {l : StepLog L W K}
    (h : timestep g P S s = .ok (S', l, s')) : Above b S' := by
  refine ⟨?_, fun c => le_trans hS.sea (C36_update h0 h c).2.2, fun c => ?_⟩
  · have := (step_result h).1.sea
    rw [this, (step_result h).2]
    linarith [hS.sea]
  · rw [(C36_update h0 h c).1]
    have := le_max_left (S'.stage c - S'.eta c) 0
    linarith

/-- C82: a whole run, timestep by timestep. -/
theorem C82_run_partial [NeZero L] [NeZero W] [FloorRing K] (hL : 2 ≤ L) (hW : 2 ≤ W) {g : Rng K σ} (k b : K) :
    ∀ {Ps : List (Params L W m K)} {S S' : State L W K} {s s' : σ} {ls : List (StepLog L W K)},
      timesteps g Ps S s = .ok (S', ls, s') → Above b S →
      (∀ P ∈ Ps, P.dryDepth ≤ b ∧ P.dryDepth ≤ b + k ∧ 0 ≤ P.h0 ∧ 0 ≤ P.SLR * P.dt) →
      List.Forall₂ (LevelFree k) Ps ls →
      timesteps g Ps (raiseState k S) s = .ok (raiseState k S', ls.map (raiseLog k), s') := by
  intro Ps
  induction Ps with
  | nil =>
    intro S S' s s' ls h _ _ _
    simp only [timesteps, Except.ok.injEq, Prod.mk.injEq] at h
    obtain ⟨rfl, rfl, rfl⟩ := h
    rfl
  | cons P Ps ih =>
    intro S S' s s' ls h hS hP hl
    obtain ⟨S1, l, s1, ls1, h1, h2, rfl⟩ := timesteps_cons h
    obtain ⟨p1, p2, p3, p4⟩ := hP P List.mem_cons_self
    rw [List.forall₂_cons] at hl
    have t := C82_timestep_partial hL hW k b p1 p2 hS h1 hl.1
    have r := ih h2 (timestep_above p3 p4 hS h1) (fun Q hQ => hP Q (List.mem_cons_of_mem _ hQ)) hl.2
    unfold timesteps
    simp only [t, r]
    rfl

/-- The routing of parcels keeps stage, bed and depth above the level. -/
lemma routeParcels_above [NeZero L] [NeZero W] [FloorRing K] {g : Rng K σ} {kind : Sed} {b : K} {P : Params L W m K}
    {S S' : State L W K} (hS : Above b S) {s s' : σ} {logs : List (SedLog L W K)}
    (h : routeParcels g kind P S s = .ok (S', logs, s')) : Above b S' := by
  have fr := routeParcels_frame h
  obtain ⟨⟨st, a, rfl⟩, -⟩ := routeParcels_inv (g := g) (k := kind) (P := P)
    (fun st => ∀ c, st.S.stage c - st.S.depth c ≤ st.S.eta c) (fun _ => True)
    (by intro st c hI; cases kind <;> exact hI) (by
      intro st px py res s st1 res1 r s1 hI hs
      have he := stepEffect hs
      obtain ⟨hb, ha, -⟩ := before_eq hs
      rw [ha]
      refine ⟨fun c => ?_, trivial⟩
      by_cases hc : c = r.cell
      · rw [hc, he.depth, Function.update_self, he.stage]
        have := le_max_right 0 (r.before.stage r.cell - r.after.eta r.cell)
        linarith
      · rw [he.depth, he.bed, he.stage, Function.update_of_ne hc, Function.update_of_ne hc, hb]
        exact hI c) h hS.bed
  refine ⟨?_, fun c => ?_, a⟩
  · rw [fr.2.2.2.2.2.2.1]; exact hS.sea
  · rw [fr.1]; exact hS.stage c

/-- C82: without diffusion and subsidence, and with a sea level that does not fall and is at least the dry depth
above zero for both levels, every run of any length is the same in every respect, including its errors and its use
of random numbers, but for elevations that are higher by `k`. -/
theorem C82_run_plain_partial [NeZero L] [NeZero W] [FloorRing K] (hL : 2 ≤ L) (hW : 2 ≤ W) (g : Rng K σ) (k b : K)
    (Ps : List (Params L W m K))
    (hP : ∀ P ∈ Ps, P.dryDepth ≤ b ∧ P.dryDepth ≤ b + k ∧ 0 ≤ P.h0 ∧ 0 ≤ P.SLR * P.dt ∧ P.diffMult = 0 ∧
      P.toggleSub = false) (S : State L W K) (hS : Above b S) (s : σ) :
    timesteps g Ps (raiseState k S) s =
      (timesteps g Ps S s).map fun x => (raiseState k x.1, x.2.1.map (raiseLog k), x.2.2) := by
  have one : ∀ P ∈ Ps, ∀ (S : State L W K) (s : σ), Above b S → timestep g P (raiseState k S) s =
      (timestep g P S s).map fun x => (raiseState k x.1, raiseLog k x.2.1, x.2.2) := by
    intro P hPs S s hS
    obtain ⟨p1, p2, p3, p4, p5, p6⟩ := hP P hPs
    have still : ∀ qs, StillBorder P qs := fun qs c _ _ => by rw [p5, zero_mul]
    have flat : ∀ qs n (eta : Grid L W K), topoDiffusion P.cellType P.diffMult qs n eta = eta := by
      intro qs n eta
      refine diffusion_induct (fun e => e = eta) ?_ n eta rfl
      rintro e rfl
      funext c
      rw [C29_cell]
      have : ∀ n, exchange P.diffMult qs e c n = 0 := by intro n; unfold exchange; rw [p5]; ring
      simp only [this]
      simp only [p5, Finset.sum_const_zero, zero_mul, sub_zero, ite_self, add_zero]
    have w := C82_water_partial hL hW g k b P p1 p2 S hS s
    cases h1 : routeWater g P S s with
    | error e =>
      have w1 := w.1
      rw [h1] at w1
      unfold timestep
      rw [w1, h1]
      rfl
    | ok r =>
      obtain ⟨S1, s1⟩ := r
      have r := C82_sediment_partial g k P S1 s1 (fun _ _ _ _ => still _)
      cases h2 : routeSediment g P S1 s1 with
      | error e =>
        have w1 := w.1
        rw [h1] at w1
        rw [h2] at r
        unfold timestep
        rw [w1, h1]
        simp only [Except.map, onState, r, h2]
      | ok t =>
        obtain ⟨S2, sand, mud, s2⟩ := t
        have hT : ∃ S' l, timestep g P S s = .ok (S', l, s2) := by
          unfold timestep
          simp only [h1, h2]
          exact ⟨_, _, rfl⟩
        obtain ⟨S', l, hT⟩ := hT
        have hl : LevelFree k P l := by
          refine ⟨still _, ?_⟩
          obtain ⟨t1, q1, q2, -, -⟩ := timestep_ok hT
          have a1 : Above b l.watered := (w.2 _ _ q1)
          obtain ⟨A, sA, m1, m2⟩ := routeSediment_ok q2
          have a2 : Above b (initSediment l.watered) := ⟨a1.sea, a1.stage, a1.bed⟩
          have a3 := routeParcels_above a2 m1
          rw [flat] at m2
          have a4 := routeParcels_above a3 m2
          have hs : applySubsidence P l.routed = l.routed := by
            unfold applySubsidence
            rw [p6]
            simp
          rw [hs]
          exact a4.dry p1 p2
        rw [C82_timestep_partial hL hW k b p1 p2 hS hT hl, hT]
        rfl
  induction Ps generalizing S s with
  | nil => rfl
  | cons P Ps ih =>
    unfold timesteps
    rw [one P List.mem_cons_self S s hS]
    cases h1 : timestep g P S s with
    | error e => rfl
    | ok r =>
      obtain ⟨S1, l, s1⟩ := r
      obtain ⟨p1, p2, p3, p4, p5, p6⟩ := hP P List.mem_cons_self
      have := ih (fun Q hQ => hP Q (List.mem_cons_of_mem _ hQ)) S1 (timestep_above p3 p4 hS h1) s1
        (fun Q hQ => one Q (List.mem_cons_of_mem _ hQ))
      simp only [Except.map, this]
      cases timesteps g Ps S1 s1 <;> rfl

/-! ### Where the level matters, and an example -/

/-- The flooding correction depends on the level: the cell in the middle is dry and no water around it is higher, and
with elevations measured from a level ten lower it keeps its stage; with the beds below zero it is flooded, because
what is dry counts as water at elevation zero. -/
theorem C82_flooding_datum :
    let eta : Grid 3 3 ℚ := fun c => if c.1.val = 2 then -9 else -4
    let stage : Grid 3 3 ℚ := fun c => if c.1.val = 2 then -5 else -4
    let depth : Grid 3 3 ℚ := fun c => stage c - eta c
    floodingCorrection (raise 10 eta) depth (raise 10 stage) (1 / 10) (1, 1) = stage (1, 1) + 10 ∧
      floodingCorrection eta depth stage (1 / 10) (1, 1) = stage (1, 1) + 4 := by
  decide +kernel

/-- Diffusion at the border depends on the level: a flat bed at zero stays flat, the same bed with elevations measured
from a level one lower falls at the border and nowhere else. -/
theorem C82_diffusion_datum :
    topoDiffusion (fun _ : Cell 3 3 => (0 : ℤ)) (1 / 20 : ℚ) (fun _ => 1) 1 (fun _ => 0) = (fun _ => 0) ∧
      topoDiffusion (fun _ : Cell 3 3 => (0 : ℤ)) (1 / 20 : ℚ) (fun _ => 1) 1 (raise 1 fun _ => 0) (2, 0) = 3 / 4 ∧
      topoDiffusion (fun _ : Cell 3 3 => (0 : ℤ)) (1 / 20 : ℚ) (fun _ => 1) 1 (raise 1 fun _ => 0) (1, 1) = 1 := by
  refine ⟨?_, ?_⟩
  · funext c
    revert c
    decide +kernel
  · decide +kernel

/-- The example without diffusion and subsidence. -/
def exPlain : Params 4 3 1 ℚ := { exParams with diffMult := 0, toggleSub := false }

/-- The example with elevations measured from a level five lower. -/
def exHigh : State 4 3 ℚ := raiseState 5 exState

theorem exPlainRun : ∃ S' ls s', timesteps constRng (List.replicate 10 exPlain) exHigh () = .ok (S', ls, s') := by
  have h1 : WaterSetup exPlain := by
    have h := exSetup
    cases h
    constructor <;> assumption
  have h2 : SedDomain exPlain := by
    have h := exSedDomain
    cases h
    constructor <;> assumption
  exact C71_run exPositive (by
    intro P hP
    rw [List.eq_of_mem_replicate hP]
    exact ⟨h1, h2, by norm_num [exPlain, exParams]⟩)
    (fun c => by norm_num [exHigh, raiseState, exState]) (by norm_num [exHigh, raiseState, exState]) ()

-- C82_run_plain_partial: ten timesteps of the example, which succeed, measured from a level seven lower still
example : ∃ S' ls s', timesteps constRng (List.replicate 10 exPlain) exHigh () = .ok (S', ls, s') ∧
    timesteps constRng (List.replicate 10 exPlain) (raiseState 7 exHigh) () =
      .ok (raiseState 7 S', ls.map (raiseLog 7), s') := by
  obtain ⟨S', ls, s', h⟩ := exPlainRun
  refine ⟨S', ls, s', h, ?_⟩
  have := C82_run_plain_partial (by norm_num) (by norm_num) constRng 7 1 (List.replicate 10 exPlain) (by
    intro P hP
    rw [List.eq_of_mem_replicate hP]
    norm_num [exPlain, exParams]) exHigh
    ⟨by norm_num [exHigh, raiseState, exState], fun c => by norm_num [exHigh, raiseState, raise, exState],
      fun c => by norm_num [exHigh, raiseState, raise, exState]⟩ ()
  rw [this, h]
  rfl

-- C82_timestep_partial: its conditions hold for the example with diffusion away from the border
example : StillBorder { exParams with cellType := fun c => if c.1.val = 3 ∨ c.2.val ≠ 1 then -2 else 0 }
    (fun c => if c.2.val = 1 then 1 else 0) := by
  intro c h1 h2
  revert h1 h2
  revert c
  unfold Held
  decide +kernel

end Verif.Props
