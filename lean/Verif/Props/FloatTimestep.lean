import Verif.Props.FloatFields
import Verif.Props.FloatDischarge
import Verif.Props.FloatWater
import Verif.Props.Timestep

/-!
# C101: timesteps and runs in rounded arithmetic
-/

set_option linter.unusedSectionVars false

namespace Verif.Props

open Verif.Model Verif.Lemmas Verif.Spec

variable {K : Type*} [Field K] [LinearOrder K] [IsStrictOrderedRing K] [FloorRing K] {σ : Type*}
  {L W m : ℕ} [NeZero L] [NeZero W] {F D : Rounding K}

/-! ## Exact arithmetic -/

lemma convolveR_exact (kernel : Fin 9 → K) (arr : Grid L W K) :
    convolveR (exact K) (exact K) kernel arr = convolve kernel arr := by
  funext c
  unfold convolveR convolve
  rw [sumR_exact]
  rfl

lemma diffusionChangeR_exact (ct : Grid L W ℤ) (mult : K) (qs eta : Grid L W K) :
    diffusionChangeR (exact K) (exact K) ct mult qs eta = diffusionChange ct mult qs eta := by
  unfold diffusionChangeR diffusionChange
  simp only [convolveR_exact]
  rfl

lemma topoDiffusionR_exact (ct : Grid L W ℤ) (mult : K) (qs : Grid L W K) (n : ℕ) (eta : Grid L W K) :
    topoDiffusionR (exact K) (exact K) ct mult qs n eta = topoDiffusion ct mult qs n eta := by
  induction n generalizing eta with
  | zero => rfl
  | succ n ih =>
    rw [topoDiffusionR, topoDiffusion, ih, diffusionChangeR_exact]
    rfl

lemma routeSedimentR_exact (g : Rng K σ) (P : Params L W m K) (S : State L W K) (s : σ) :
    routeSedimentR (exact K) (exact K) g P S s = routeSediment g P S s := by
  have e : routerParams (exact K) P = P := rfl
  unfold routeSedimentR routeSediment
  rw [e]
  simp only [routeParcelsR_exact, topoDiffusionR_exact]
  cases routeParcels g .sand P (initSediment S) s with
  | error e => rfl
  | ok x =>
    simp only
    cases routeParcels g .mud P _ x.2.2 <;> rfl

lemma timestepR_exact (g : Rng K σ) (P : Params L W m K) (S : State L W K) (s : σ) :
    timestepR (exact K) (exact K) g P S s = timestep g P S s := by
  unfold timestepR timestep
  simp only [routeWaterR_exact, routeSedimentR_exact]
  cases routeWater g P S s with
  | error e => rfl
  | ok x =>
    simp only
    cases routeSediment g P x.1 x.2 <;> rfl

/-- With exact arithmetic a rounded run is the exact one. -/
theorem timestepsR_exact (g : Rng K σ) (Ps : List (Params L W m K)) (S : State L W K) (s : σ) :
    timestepsR (exact K) (exact K) g Ps S s = timesteps g Ps S s := by
  induction Ps generalizing S s with
  | nil => rfl
  | cons P Ps ih =>
    rw [timestepsR, timesteps, timestepR_exact]
    cases timestep g P S s with
    | error e => rfl
    | ok x =>
      simp only [ih]
      cases timesteps g Ps x.1 x.2.2 <;> rfl

/-! ## Parts of a timestep -/

lemma routeSedimentR_ok {g : Rng K σ} {P : Params L W m K} {S S' : State L W K} {s s' : σ}
    {sand mud : List (SedLog L W K)} (h : routeSedimentR F D g P S s = .ok (S', sand, mud, s')) :
    ∃ S1 s1, routeParcelsR F D g .sand (routerParams F P) (initSediment S) s = .ok (S1, sand, s1) ∧
      routeParcelsR F D g .mud (routerParams F P)
        { S1 with eta := topoDiffusionR F D P.cellType P.diffMult S1.qs P.Ncross S1.eta } s1 =
        .ok (S', mud, s') := by
  unfold routeSedimentR at h
  split at h
  · cases h
  · rename_i S1 sand1 s1 h1
    simp only at h
    split at h
    · cases h
    · rename_i S3 mud1 s2 h2
      simp only [Except.ok.injEq, Prod.mk.injEq] at h
      obtain ⟨rfl, rfl, rfl, rfl⟩ := h
      exact ⟨S1, s1, h1, h2⟩

lemma timestepR_ok {g : Rng K σ} {P : Params L W m K} {S S' : State L W K} {s s' : σ}
    {l : StepLog L W K} (h : timestepR F D g P S s = .ok (S', l, s')) :
    ∃ s1, routeWaterR F D g P S s = .ok (l.watered, s1) ∧
      routeSedimentR F D g P l.watered s1 = .ok (l.routed, l.sand, l.mud, s') ∧ l.start = S ∧
      S' = { finalizeTimestepR F D P S.eta (applySubsidenceR F D P l.routed) with
        time := D.fl ((finalizeTimestepR F D P S.eta (applySubsidenceR F D P l.routed)).time + P.dt)
        timeIter := (finalizeTimestepR F D P S.eta (applySubsidenceR F D P l.routed)).timeIter + 1 } := by
  unfold timestepR at h
  split at h
  · cases h
  · rename_i S1 s1 h1
    split at h
    · cases h
    · rename_i S2 sand mud s2 h2
      simp only [Except.ok.injEq, Prod.mk.injEq] at h
      obtain ⟨rfl, rfl, rfl⟩ := h
      exact ⟨s1, h1, h2, rfl, rfl⟩

lemma timestepsR_cons {g : Rng K σ} {P : Params L W m K} {Ps : List (Params L W m K)}
    {S S' : State L W K} {s s' : σ} {ls : List (StepLog L W K)}
    (h : timestepsR F D g (P :: Ps) S s = .ok (S', ls, s')) :
    ∃ S1 l s1 ls1, timestepR F D g P S s = .ok (S1, l, s1) ∧
      timestepsR F D g Ps S1 s1 = .ok (S', ls1, s') ∧ ls = l :: ls1 := by
  unfold timestepsR at h
  split at h
  · cases h
  · rename_i S1 l s1 h1
    split at h
    · cases h
    · rename_i S2 ls1 s2 h2
      simp only [Except.ok.injEq, Prod.mk.injEq] at h
      obtain ⟨rfl, rfl, rfl⟩ := h
      exact ⟨S1, l, s1, ls1, h1, h2, rfl⟩

/-- Invariants of runs. -/
lemma timestepsR_inv {g : Rng K σ} {A : Params L W m K → Prop} {I : State L W K → Prop}
    {J : StepLog L W K → Prop}
    (hstep : ∀ P S s S' l s', A P → I S → timestepR F D g P S s = .ok (S', l, s') → I S' ∧ J l) :
    ∀ {Ps : List (Params L W m K)} {S S' : State L W K} {s s' : σ} {ls : List (StepLog L W K)},
    timestepsR F D g Ps S s = .ok (S', ls, s') → (∀ P ∈ Ps, A P) → I S → I S' ∧ ∀ l ∈ ls, J l := by
  intro Ps
  induction Ps with
  | nil =>
    intro S S' s s' ls h _ hI
    simp only [timestepsR, Except.ok.injEq, Prod.mk.injEq] at h
    obtain ⟨rfl, rfl, rfl⟩ := h
    exact ⟨hI, by simp⟩
  | cons P Ps ih =>
    intro S S' s s' ls h hA hI
    obtain ⟨S1, l, s1, ls1, h1, h2, rfl⟩ := timestepsR_cons h
    obtain ⟨a, b⟩ := hstep _ _ _ _ _ _ (hA P List.mem_cons_self) hI h1
    obtain ⟨e, f⟩ := ih h2 (fun Q hQ => hA Q (List.mem_cons_of_mem _ hQ)) a
    refine ⟨e, ?_⟩
    intro x hx
    rcases List.mem_cons.1 hx with rfl | hx
    · exact b
    · exact f x hx

/-! ## What the routing of parcels leaves alone -/

/-- Invariants of the state over a routing of parcels. -/
lemma routeParcelsR_inv {g : Rng K σ} {k : Sed} {P : Params L W m K} (I : State L W K → Prop)
    (henter : ∀ st c, I st.S → I (enterStateR F D k P st c).S)
    (hstep : ∀ st px py res s st1 res1 r s1, I st.S →
      sedStepR F D g k P st px py res s = .ok (st1, res1, r, s1) → I st1.S)
    {S S' : State L W K} {s s' : σ} {logs : List (SedLog L W K)}
    (h : routeParcelsR F D g k P S s = .ok (S', logs, s')) (h0 : I S) : I S' := by
  obtain ⟨starts, st, -, hp, rfl⟩ := routeParcelsR_ok h
  have := sedParcelsR_induct (F := F) (D := D) (g := g) (k := k) (P := P) (fun st _ => I st.S) (by
      intro st logs py c s st' res rs s' hI hc hl
      exact (sedLoopR_induct (fun st _ => I st.S) (fun _ => True)
        (fun st px py res s st1 res1 r s1 hI h => ⟨hstep _ _ _ _ _ _ _ _ _ hI h, trivial⟩)
        _ _ _ _ _ _ _ _ _ _ (henter st c hI) hl).1) _ _ [] _ _ _ _ h0 hp
  exact this

/-- What the sediment routing leaves alone. -/
def SameWater (S S' : State L W K) : Prop :=
  S'.stage = S.stage ∧ S'.qx = S.qx ∧ S'.qy = S.qy ∧ S'.qw = S.qw ∧ S'.sandFrac = S.sandFrac ∧
    S'.activeLayer = S.activeLayer ∧ S'.HSL = S.HSL ∧ S'.time = S.time ∧
    S'.timeIter = S.timeIter ∧ S'.ncols = S.ncols

lemma SameWater.trans {S T U : State L W K} (h1 : SameWater S T) (h2 : SameWater T U) : SameWater S U := by
  obtain ⟨a1, a2, a3, a4, a5, a6, a7, a8, a9, a10⟩ := h1
  obtain ⟨b1, b2, b3, b4, b5, b6, b7, b8, b9, b10⟩ := h2
  exact ⟨b1.trans a1, b2.trans a2, b3.trans a3, b4.trans a4, b5.trans a5, b6.trans a6, b7.trans a7,
    b8.trans a8, b9.trans a9, b10.trans a10⟩

lemma sedStepR_water {g : Rng K σ} {k : Sed} {P : Params L W m K} {st st1 : SedSt L W K} {px py : ℤ}
    {res res1 : K} {s s1 : σ} {r : SedRec L W K}
    (h : sedStepR F D g k P st px py res s = .ok (st1, res1, r, s1)) : SameWater st.S st1.S := by
  obtain ⟨c0, d, c, cp, w, -, -, -, -, -, -, -, -, -, -, -, -, hb, -, -, ha, h1, -⟩ := sedStepR_ok h
  rw [h1, ha, recordDepositR_frame, hb, fieldsAtR_frame]
  exact ⟨rfl, rfl, rfl, rfl, rfl, rfl, rfl, rfl, rfl, rfl⟩

lemma routeParcelsR_water {g : Rng K σ} {k : Sed} {P : Params L W m K} {S S' : State L W K} {s s' : σ}
    {logs : List (SedLog L W K)} (h : routeParcelsR F D g k P S s = .ok (S', logs, s')) : SameWater S S' :=
  routeParcelsR_inv (SameWater S) (fun st c hI => by cases k <;> exact hI)
    (fun st px py res s st1 res1 r s1 hI hs => hI.trans (sedStepR_water hs)) h
    ⟨rfl, rfl, rfl, rfl, rfl, rfl, rfl, rfl, rfl, rfl⟩

lemma routeSedimentR_water {g : Rng K σ} {P : Params L W m K} {S S' : State L W K} {s s' : σ}
    {sand mud : List (SedLog L W K)} (h : routeSedimentR F D g P S s = .ok (S', sand, mud, s')) :
    SameWater S S' := by
  obtain ⟨S1, s1, h1, h2⟩ := routeSedimentR_ok h
  have a := routeParcelsR_water h1
  have b := routeParcelsR_water h2
  exact (show SameWater S S1 from a).trans (show SameWater S1 S' from b)

/-- The deposits that are recorded are not negative and are numbers of their field. -/
def DepositsOk (F : Rounding K) (S : State L W K) : Prop :=
  ∀ c, 0 ≤ S.depSand c ∧ 0 ≤ S.depMud c ∧ F.fl (S.depSand c) = S.depSand c

lemma sedStepR_deposits {g : Rng K σ} {k : Sed} {P : Params L W m K} {st st1 : SedSt L W K} {px py : ℤ}
    {res res1 : K} {s s1 : σ} {r : SedRec L W K} (h0 : DepositsOk F st.S)
    (h : sedStepR F D g k P st px py res s = .ok (st1, res1, r, s1)) : DepositsOk F st1.S := by
  obtain ⟨c0, d, c, cp, w, -, -, -, -, -, -, -, -, -, -, -, -, hb, -, -, ha, h1, -⟩ := sedStepR_ok h
  have e1 : r.before.depSand = st.S.depSand ∧ r.before.depMud = st.S.depMud := by
    rw [hb, fieldsAtR_frame]; exact ⟨rfl, rfl⟩
  intro x
  obtain ⟨p1, p2, p3⟩ := h0 x
  have e2 : st1.S.depSand = (recordDepositR F D k r.before c r.change).depSand ∧
      st1.S.depMud = (recordDepositR F D k r.before c r.change).depMud := by
    rw [h1, ha]; exact ⟨rfl, rfl⟩
  rw [e2.1, e2.2]
  unfold recordDepositR
  split_ifs with hv
  · cases k
    · simp only [e1.1, e1.2]
      by_cases hx : x = c
      · subst hx
        rw [Function.update_self]
        exact ⟨fl_nonneg F (fl_nonneg D (by linarith)), p2, F.idem _⟩
      · rw [Function.update_of_ne hx]
        exact ⟨p1, p2, p3⟩
    · simp only [e1.1, e1.2]
      by_cases hx : x = c
      · subst hx
        rw [Function.update_self]
        exact ⟨p1, fl_nonneg F (fl_nonneg D (by linarith)), p3⟩
      · rw [Function.update_of_ne hx]
        exact ⟨p1, p2, p3⟩
  · rw [e1.1, e1.2]
    exact ⟨p1, p2, p3⟩

lemma routeParcelsR_deposits {g : Rng K σ} {k : Sed} {P : Params L W m K} {S S' : State L W K} {s s' : σ}
    {logs : List (SedLog L W K)} (h : routeParcelsR F D g k P S s = .ok (S', logs, s'))
    (h0 : DepositsOk F S) : DepositsOk F S' :=
  routeParcelsR_inv (DepositsOk F) (fun st c hI => by cases k <;> exact hI)
    (fun st px py res s st1 res1 r s1 hI hs => sedStepR_deposits hI hs) h h0

lemma routeSedimentR_deposits {g : Rng K σ} {P : Params L W m K} {S S' : State L W K} {s s' : σ}
    {sand mud : List (SedLog L W K)} (h : routeSedimentR F D g P S s = .ok (S', sand, mud, s')) :
    DepositsOk F S' := by
  obtain ⟨S1, s1, h1, h2⟩ := routeSedimentR_ok h
  have a := routeParcelsR_deposits h1 (show DepositsOk F (initSediment S) from
    fun c => ⟨le_refl _, le_refl _, fl_zero F⟩)
  exact routeParcelsR_deposits h2 a

lemma sedStepR_stored {g : Rng K σ} {k : Sed} {P : Params L W m K} {st st1 : SedSt L W K} {px py : ℤ}
    {res res1 : K} {s s1 : σ} {r : SedRec L W K} (h0 : Stored F st.S)
    (h : sedStepR F D g k P st px py res s = .ok (st1, res1, r, s1)) : Stored F st1.S := by
  obtain ⟨a1, a2, a3, a4, -⟩ := sedStepR_water h
  obtain ⟨c0, d, c, cp, w, -, -, -, -, -, -, -, -, -, -, -, -, hb, -, -, ha, h1, -⟩ := sedStepR_ok h
  rw [recordDepositR_frame, hb, fieldsAtR_frame] at ha
  have key : ∀ (f : Grid L W K) (v : K), (∀ c, F.fl (f c) = f c) → F.fl v = v →
      ∀ x, F.fl (Function.update f c v x) = Function.update f c v x := by
    intro f v hf hv x
    by_cases hx : x = c
    · subst hx; rw [Function.update_self]; exact hv
    · rw [Function.update_of_ne hx]; exact hf x
  have hz : F.fl 0 = 0 := fl_zero F
  constructor
  · rw [h1, ha]
    exact key _ _ h0.bed (F.idem _)
  · rw [a1]; exact h0.stage
  · rw [h1, ha]
    exact key _ _ h0.depth (F.idem _)
  · rw [a2]; exact h0.qx
  · rw [a3]; exact h0.qy
  · rw [a4]; exact h0.qw
  · rw [h1, ha]
    refine key _ _ h0.ux ?_
    split_ifs <;> first | exact F.idem _ | exact hz
  · rw [h1, ha]
    refine key _ _ h0.uy ?_
    split_ifs <;> first | exact F.idem _ | exact hz
  · rw [h1, ha]
    exact key _ _ h0.uw (F.idem _)

lemma routeParcelsR_stored {g : Rng K σ} {k : Sed} {P : Params L W m K} {S S' : State L W K} {s s' : σ}
    {logs : List (SedLog L W K)} (h : routeParcelsR F D g k P S s = .ok (S', logs, s'))
    (h0 : Stored F S) : Stored F S' :=
  routeParcelsR_inv (Stored F)
    (fun st c hI => by
      cases k
      · exact ⟨hI.bed, hI.stage, hI.depth, hI.qx, hI.qy, hI.qw, hI.ux, hI.uy, hI.uw⟩
      · exact hI)
    (fun st px py res s st1 res1 r s1 hI hs => sedStepR_stored hI hs) h h0

lemma topoDiffusionR_stored (ct : Grid L W ℤ) (mult : K) (qs : Grid L W K) (n : ℕ) {eta : Grid L W K}
    (h : ∀ c, F.fl (eta c) = eta c) (c : Cell L W) :
    F.fl (topoDiffusionR F D ct mult qs n eta c) = topoDiffusionR F D ct mult qs n eta c := by
  induction n generalizing eta with
  | zero => exact h c
  | succ n ih =>
    rw [topoDiffusionR]
    exact ih (fun c => F.idem _)

/-- Diffusion leaves land and the first row as they are. -/
lemma topoDiffusionR_held (ct : Grid L W ℤ) (mult : K) (qs : Grid L W K) (n : ℕ) {eta : Grid L W K}
    {c : Cell L W} (h : F.fl (eta c) = eta c) (hc : Held ct c) :
    topoDiffusionR F D ct mult qs n eta c = eta c := by
  induction n generalizing eta with
  | zero => rfl
  | succ n ih =>
    have e : F.fl (eta c + diffusionChangeR F D ct mult qs eta c) = eta c := by
      have : diffusionChangeR F D ct mult qs eta c = 0 := by
        simp only [diffusionChangeR, assign]
        rcases hc with hc | hc
        · simp [hc]
        · simp [hc]
      rw [this, add_zero, h]
    rw [topoDiffusionR, ih (by simp only [e, h])]
    exact e

lemma routeSedimentR_stored {g : Rng K σ} {P : Params L W m K} {S S' : State L W K} {s s' : σ}
    {sand mud : List (SedLog L W K)} (h : routeSedimentR F D g P S s = .ok (S', sand, mud, s'))
    (h0 : Stored F S) : Stored F S' := by
  obtain ⟨S1, s1, h1, h2⟩ := routeSedimentR_ok h
  have a := routeParcelsR_stored h1 (show Stored F (initSediment S) from
    ⟨h0.bed, h0.stage, h0.depth, h0.qx, h0.qy, h0.qw, h0.ux, h0.uy, h0.uw⟩)
  refine routeParcelsR_stored h2 ⟨fun c => topoDiffusionR_stored _ _ _ _ a.bed c, a.stage, a.depth, a.qx, a.qy,
    a.qw, a.ux, a.uy, a.uw⟩

/-! ## No timestep aborts -/

lemma routerParams_domain {P : Params L W m K} (h : SedDomain P) : SedDomain (routerParams F P) :=
  ⟨h.hL, h.active, h.last, h.below, h.inlet, h.hm, h.steps, fl_pos F h.s2, h.pw,
    fun c => fl_nonneg F (h.mod c)⟩

lemma routerParams_setup {P : Params L W m K} (h1 : F.fl 1 = 1) (h : SedSetup P) :
    SedSetup (routerParams F P) where
  dx := fl_pos F h.dx
  dt := fl_pos F h.dt
  vp := fl_nonneg F h.vp
  mod := fun c => fl_nonneg F (h.mod c)
  lam0 := fl_nonneg F h.lam0
  lam1 := fl_le_of_le F h1 h.lam1
  pwNonneg := h.pwNonneg
  pwPos := h.pwPos
  pwMono := h.pwMono
  eroSand := fl_pos F h.eroSand
  eroMud := fl_pos F h.eroMud
  depMud := fl_pos F h.depMud
  uMax := fl_nonneg F h.uMax
  s2 := fl_pos F h.s2

/-- C101: the sediment routing of a timestep never aborts in rounded arithmetic, and every step of every
parcel leads to a neighbouring cell that is not land or upstream out of the first row. -/
theorem C101_sediment_routing {g : Rng K σ} (hFD : Within F D) (hg : PositiveDraws g)
    {P : Params L W m K} (hP : SedDomain P) {S : State L W K} (hd : ∀ c, 0 ≤ S.depth c) (s : σ) :
    ∃ S' sand mud s', routeSedimentR F D g P S s = .ok (S', sand, mud, s') ∧ (∀ c, 0 ≤ S'.depth c) ∧
      sand.length = numStartsR D .sand P ∧ mud.length = numStartsR D .mud P ∧
      ∀ l ∈ sand ++ mud, ∀ r ∈ l.steps, SedMove P r := by
  have hR := routerParams_domain (F := F) hP
  obtain ⟨S1, sand, s1, h1, hd1, n1, m1⟩ := C98_routing hFD hg .sand hR (S := initSediment S) hd s
  obtain ⟨S2, mud, s2, h2, hd2, n2, m2⟩ := C98_routing hFD hg .mud hR
    (S := { S1 with eta := topoDiffusionR F D P.cellType P.diffMult S1.qs P.Ncross S1.eta }) hd1 s1
  refine ⟨S2, sand, mud, s2, ?_, hd2, n1, n2, ?_⟩
  · unfold routeSedimentR
    simp only [h1, h2]
  · intro l hl r hr
    rcases List.mem_append.mp hl with hl | hl
    · exact m1 l hl r hr
    · exact m2 l hl r hr

/-! ## What a timestep leaves -/

lemma applySubsidenceR_frame (P : Params L W m K) (S : State L W K) :
    applySubsidenceR F D P S = { S with eta := fun c =>
      if P.toggleSub = true ∧ P.startSub ≤ S.time then F.fl (D.fl (S.eta c - P.sigma c)) else S.eta c } := by
  unfold applySubsidenceR
  by_cases h1 : P.toggleSub = true <;> by_cases h2 : P.startSub ≤ S.time <;> simp [h1, h2]

/-- The values of the new state in terms of the state after the sediment routing. -/
structure StepResultR (F D : Rounding K) (P : Params L W m K) (l : StepLog L W K) (S' : State L W K) :
    Prop where
  stage : ∀ c, S'.stage c = max (floodingCorrection (applySubsidenceR F D P l.routed).eta l.routed.depth
    l.routed.stage (F.fl P.dryDepth) c) (F.fl l.start.HSL)
  bed : ∀ c, ¬ InletCell P c → S'.eta c =
    if P.toggleSub = true ∧ P.startSub ≤ l.start.time then F.fl (D.fl (l.routed.eta c - P.sigma c))
      else l.routed.eta c
  inletBed : ∀ c, InletCell P c → S'.eta c = F.fl (S'.stage c - F.fl P.h0)
  depth : ∀ c, ¬ InletCell P c → S'.depth c = max (F.fl (S'.stage c - S'.eta c)) 0
  inletDepth : ∀ c, InletCell P c → S'.depth c = F.fl P.h0
  sea : S'.HSL = D.fl (l.start.HSL + D.fl (P.SLR * P.dt))
  time : S'.time = D.fl (l.start.time + P.dt)
  timeIter : S'.timeIter = l.start.timeIter + 1
  flow : S'.qx = l.watered.qx ∧ S'.qy = l.watered.qy ∧ S'.qw = l.watered.qw ∧
    S'.ux = l.routed.ux ∧ S'.uy = l.routed.uy ∧ S'.uw = l.routed.uw ∧ S'.qs = l.routed.qs ∧
    S'.depSand = l.routed.depSand ∧ S'.depMud = l.routed.depMud ∧ S'.ncols = l.watered.ncols

lemma step_resultR {g : Rng K σ} {P : Params L W m K} {S S' : State L W K} {s s' : σ}
    {l : StepLog L W K} (h : timestepR F D g P S s = .ok (S', l, s')) :
    StepResultR F D P l S' ∧ l.start = S := by
  obtain ⟨s1, h1, h2, h3, rfl⟩ := timestepR_ok h
  obtain ⟨-, w2, w3, w4, -⟩ := C100_ground h1
  obtain ⟨r1, r2, r3, r4, r5, r6, r7, r8, r9, r10⟩ := routeSedimentR_water h2
  refine ⟨?_, h3⟩
  have hin : ∀ c, isInlet P.inlet c = true ↔ InletCell P c := isInlet_iff P
  rw [applySubsidenceR_frame]
  constructor
  · intro c
    rw [h3, ← w2, ← r7, applySubsidenceR_frame]
    rfl
  · intro c hc
    rw [← hin] at hc
    rw [h3, ← w3, ← r8]
    simp [finalizeTimestepR, computeSandFracR, assign, hc]
  · intro c hc
    rw [← hin] at hc
    simp [finalizeTimestepR, computeSandFracR, assign, hc]
  · intro c hc
    rw [← hin] at hc
    simp [finalizeTimestepR, computeSandFracR, assign, hc]
  · intro c hc
    rw [← hin] at hc
    simp [finalizeTimestepR, computeSandFracR, assign, hc]
  · rw [h3, ← w2, ← r7]; rfl
  · rw [h3, ← w3, ← r8]; rfl
  · rw [h3, ← w4, ← r9]; rfl
  · exact ⟨r2, r3, r4, rfl, rfl, rfl, rfl, rfl, rfl, r10⟩

/-- Specification: bed, surface and depth at the end of a timestep that began at sea level `sea`. -/
structure EndFloat (F : Rounding K) (P : Params L W m K) (sea : K) (S : State L W K) : Prop where
  /-- the surface is not below the sea -/
  sea : ∀ c, F.fl sea ≤ S.stage c
  depth : ∀ c, 0 ≤ S.depth c
  /-- water stands where the surface is above the bed -/
  wet : ∀ c, ¬ InletCell P c → (0 < S.depth c ↔ S.eta c < S.stage c)
  /-- depth is the difference of surface and bed, rounded once -/
  column : ∀ c, ¬ InletCell P c → S.eta c ≤ S.stage c →
    |S.eta c + S.depth c - S.stage c| ≤ F.u * (S.stage c - S.eta c)
  /-- the inlet has its depth, and its bed is that far below the surface, rounded once -/
  inlet : ∀ c, InletCell P c → S.depth c = F.fl P.h0 ∧
    |S.eta c + F.fl P.h0 - S.stage c| ≤ F.u * |S.stage c - F.fl P.h0|

/-- C101: bed, surface and depth at the end of each timestep. -/
theorem C101_fields {g : Rng K σ} {P : Params L W m K} (h0 : 0 ≤ P.h0) {S S' : State L W K}
    {s s' : σ} {l : StepLog L W K} (h : timestepR F D g P S s = .ok (S', l, s')) :
    EndFloat F P S.HSL S' := by
  obtain ⟨r, rfl⟩ := step_resultR h
  have hd : ∀ c, 0 ≤ S'.depth c := by
    intro c
    by_cases hc : InletCell P c
    · rw [r.inletDepth c hc]; exact fl_nonneg F h0
    · rw [r.depth c hc]; exact le_max_right _ _
  refine ⟨fun c => by rw [r.stage]; exact le_max_right _ _, hd, fun c hc => ?_, fun c hc hle => ?_,
    fun c hc => ⟨r.inletDepth c hc, ?_⟩⟩
  · rw [r.depth c hc, lt_max_iff, fl_pos_iff, sub_pos]
    simp
  · rw [r.depth c hc, max_eq_left (fl_nonneg F (sub_nonneg.2 hle))]
    have := F.err (S'.stage c - S'.eta c)
    rw [abs_of_nonneg (sub_nonneg.2 hle)] at this
    rwa [show S'.eta c + F.fl (S'.stage c - S'.eta c) - S'.stage c =
      F.fl (S'.stage c - S'.eta c) - (S'.stage c - S'.eta c) by ring]
  · rw [r.inletBed c hc]
    have := F.err (S'.stage c - F.fl P.h0)
    rwa [show F.fl (S'.stage c - F.fl P.h0) + F.fl P.h0 - S'.stage c =
      F.fl (S'.stage c - F.fl P.h0) - (S'.stage c - F.fl P.h0) by ring]

/-- C101: subsidence lowers the bed of a cell outside of the inlet by its rate, up to one rounding of each
precision, once it has begun; nothing else changes the bed after the sediment routing. -/
theorem C101_subsidence {g : Rng K σ} {P : Params L W m K} {S S' : State L W K}
    {s s' : σ} {l : StepLog L W K} (h : timestepR F D g P S s = .ok (S', l, s')) {c : Cell L W}
    (hc : ¬ InletCell P c) :
    (P.toggleSub = true ∧ P.startSub ≤ S.time → |S'.eta c - (l.routed.eta c - P.sigma c)| ≤
      (F.u + D.u + F.u * D.u) * |l.routed.eta c - P.sigma c|) ∧
    (¬ (P.toggleSub = true ∧ P.startSub ≤ S.time) → S'.eta c = l.routed.eta c) := by
  obtain ⟨r, rfl⟩ := step_resultR h
  rw [r.bed c hc]
  constructor
  · intro hs
    rw [if_pos hs]
    exact stored_err _
  · intro hs
    rw [if_neg hs]

/-! ## No timestep aborts -/

/-- C101: a timestep never aborts in rounded arithmetic, on a well laid-out domain, for all draws in
(0, 1]; it routes the configured numbers of parcels. -/
theorem C101_update {g : Rng K σ} (hFD : Within F D) (hg : PositiveDraws g) {P : Params L W m K}
    (hW : WaterSetup P) (hD : SedDomain P) (h0 : 0 ≤ P.h0) {S : State L W K} (hd : ∀ c, 0 ≤ S.depth c)
    (hn : 0 < S.ncols) (s : σ) :
    ∃ S' l s', timestepR F D g P S s = .ok (S', l, s') ∧ (∀ c, 0 ≤ S'.depth c) ∧ 0 < S'.ncols ∧
      l.sand.length = numStartsR D .sand P ∧ l.mud.length = numStartsR D .mud P ∧
      ∀ x ∈ l.sand ++ l.mud, ∀ r ∈ x.steps, SedMove P r := by
  obtain ⟨S1, s1, h1, h2, h3⟩ := C100_water_routing (F := F) (D := D) hg hW hd hn s
  obtain ⟨S2, sand, mud, s2, h4, h5, n1, n2, mv⟩ := C101_sediment_routing hFD hg hD h2 s1
  have : timestepR F D g P S s = .ok (({ finalizeTimestepR F D P S.eta (applySubsidenceR F D P S2) with
      time := D.fl ((finalizeTimestepR F D P S.eta (applySubsidenceR F D P S2)).time + P.dt)
      timeIter := (finalizeTimestepR F D P S.eta (applySubsidenceR F D P S2)).timeIter + 1 } : State L W K),
      ⟨S, S1, S2, sand, mud⟩, s2) := by
    unfold timestepR
    simp only [h1, h4]
  refine ⟨_, _, _, this, (C101_fields h0 this).depth, ?_, n1, n2, mv⟩
  rw [(step_resultR this).1.flow.2.2.2.2.2.2.2.2.2]
  exact h3

/-- C101: runs of any length never abort in rounded arithmetic; settings may change between timesteps. -/
theorem C101_run {g : Rng K σ} (hFD : Within F D) (hg : PositiveDraws g) :
    ∀ {Ps : List (Params L W m K)},
    (∀ P ∈ Ps, WaterSetup P ∧ SedDomain P ∧ 0 ≤ P.h0) → ∀ {S : State L W K},
    (∀ c, 0 ≤ S.depth c) → 0 < S.ncols → ∀ s : σ,
    ∃ S' ls s', timestepsR F D g Ps S s = .ok (S', ls, s') ∧ ls.length = Ps.length := by
  intro Ps
  induction Ps with
  | nil => intro _ S _ _ s; exact ⟨S, [], s, rfl, rfl⟩
  | cons P Ps ih =>
    intro hPs S hd hn s
    obtain ⟨hW, hD, h0⟩ := hPs P List.mem_cons_self
    obtain ⟨S1, l, s1, h1, hd1, hn1, -⟩ := C101_update hFD hg hW hD h0 hd hn s
    obtain ⟨S2, ls, s2, h3, hl⟩ := ih (fun Q hQ => hPs Q (List.mem_cons_of_mem _ hQ)) hd1 hn1 s1
    unfold timestepsR
    simp only [h1, h3]
    exact ⟨_, _, _, rfl, by simp [hl]⟩

/-! ## The clock -/

/-- C101: in a run of `n` timesteps the clock is the time step added `n` times, rounded each time, as in
C95; likewise the sea level. -/
theorem C101_clock {g : Rng K σ} {P : Params L W m K} : ∀ {n : ℕ} {S S' : State L W K} {s s' : σ}
    {ls : List (StepLog L W K)}, timestepsR F D g (List.replicate n P) S s = .ok (S', ls, s') →
    S'.time = ticks D P.dt S.time n ∧ S'.HSL = ticks D (D.fl (P.SLR * P.dt)) S.HSL n ∧
      S'.timeIter = S.timeIter + n := by
  intro n
  induction n with
  | zero =>
    intro S S' s s' ls h
    simp only [List.replicate_zero, timestepsR, Except.ok.injEq, Prod.mk.injEq] at h
    obtain ⟨rfl, rfl, rfl⟩ := h
    exact ⟨rfl, rfl, rfl⟩
  | succ n ih =>
    intro S S' s s' ls h
    rw [List.replicate_succ] at h
    obtain ⟨S1, l, s1, ls1, h1, h2, rfl⟩ := timestepsR_cons h
    obtain ⟨r, rfl⟩ := step_resultR h1
    obtain ⟨a, b, c⟩ := ih h2
    refine ⟨?_, ?_, ?_⟩
    · rw [a, r.time, ticks_shift]
    · rw [b, r.sea, ticks_shift]
    · rw [c, r.timeIter]; omega

/-! ## Fields hold numbers of their type -/

/-- C101: the fields hold numbers of their precision after any number of timesteps. -/
theorem C101_stored {g : Rng K σ} {P : Params L W m K} (hL : 2 ≤ L) (hW : 2 ≤ W) {S S' : State L W K}
    {s s' : σ} {l : StepLog L W K} (hS : Stored F S) (h : timestepR F D g P S s = .ok (S', l, s')) :
    Stored F l.watered ∧ Stored F l.routed ∧ Stored F S' := by
  obtain ⟨s1, h1, h2, h3, -⟩ := timestepR_ok h
  have a := C100_stored hL hW hS h1
  have b := routeSedimentR_stored h2 a
  obtain ⟨r, rfl⟩ := step_resultR h
  refine ⟨a, b, ?_⟩
  obtain ⟨f1, f2, f3, f4, f5, f6, -⟩ := r.flow
  have hst : ∀ c, F.fl (S'.stage c) = S'.stage c := by
    intro c
    rw [r.stage]
    exact fl_max (flooding_stored hL hW b.stage c) (F.idem _)
  constructor
  · intro c
    by_cases hc : InletCell P c
    · rw [r.inletBed c hc, F.idem]
    · rw [r.bed c hc]
      split_ifs
      · exact F.idem _
      · exact b.bed c
  · exact hst
  · intro c
    by_cases hc : InletCell P c
    · rw [r.inletDepth c hc, F.idem]
    · rw [r.depth c hc]
      exact fl_max (F.idem _) (fl_zero F)
  · rw [f1]; exact a.qx
  · rw [f2]; exact a.qy
  · rw [f3]; exact a.qw
  · rw [f4]; exact b.ux
  · rw [f5]; exact b.uy
  · rw [f6]; exact b.uw

/-- Settings in range, for the steps of sediment. -/
structure RangeSetup (P : Params L W m K) : Prop where
  sed : SedSetup P
  dry : 0 ≤ P.dryDepth
  flow : 0 ≤ P.qw0
  nrm : ∀ x y, 0 ≤ P.nrm x y
  iter : 0 < P.itermax
  h0 : 0 ≤ P.h0

/-- C101: every step of every parcel in every timestep of a run is as in C98. -/
theorem C101_steps {g : Rng K σ} (hFD : Within F D) (hF : F.u ≤ 1 / 4) (hD : D.u ≤ 1 / 4) (h1 : F.fl 1 = 1)
    (hL : 2 ≤ L) (hW : 2 ≤ W) {Ps : List (Params L W m K)} (hPs : ∀ P ∈ Ps, RangeSetup P)
    {S S' : State L W K} (hS : Stored F S) {s s' : σ} {ls : List (StepLog L W K)}
    (h : timestepsR F D g Ps S s = .ok (S', ls, s')) :
    Stored F S' ∧ ∀ l ∈ ls, ∃ P ∈ Ps, WaterFloat F P l.watered ∧
      ∀ x ∈ l.sand ++ l.mud, ∀ r ∈ x.steps, StepFloat F D (routerParams F P) r := by
  refine timestepsR_inv (A := fun P => P ∈ Ps) (I := Stored F)
    (J := fun l => ∃ P ∈ Ps, WaterFloat F P l.watered ∧
      ∀ x ∈ l.sand ++ l.mud, ∀ r ∈ x.steps, StepFloat F D (routerParams F P) r) ?_ h (fun _ h => h) hS
  intro P S s S' l s' hPm hS ht
  have hP := hPs P hPm
  obtain ⟨a, b, c⟩ := C101_stored hL hW hS ht
  refine ⟨c, P, hPm, ?_⟩
  obtain ⟨s1, hw, hsed, rfl, -⟩ := timestepR_ok ht
  refine ⟨C100_fields hP.sed.uMax hP.dry hP.iter hw, ?_⟩
  obtain ⟨f, hU⟩ := C100_ready hL hW hP.sed.uMax hP.dry hP.flow hP.nrm hP.iter hS hw
  obtain ⟨S1, s2, e1, e2⟩ := routeSedimentR_ok hsed
  obtain ⟨f1, g1⟩ := C98_steps hFD hF hD (routerParams_setup h1 hP.sed) hU f e1
  obtain ⟨-, g2⟩ := C98_steps hFD hF hD (routerParams_setup h1 hP.sed) hU
    (S := { S1 with eta := topoDiffusionR F D P.cellType P.diffMult S1.qs P.Ncross S1.eta })
    ⟨f1.flow, fun c => topoDiffusionR_stored _ _ _ _ f1.bed c, f1.stage⟩ e2
  intro x hx r hr
  rcases List.mem_append.1 hx with hx | hx
  · exact g1 x hx r hr
  · exact g2 x hx r hr

/-! ## Sand fraction -/

lemma mixture_bounds (h1 : F.fl 1 = 1) {a b : K} (ha : 0 ≤ a) (hb : 0 ≤ b) (hs : F.fl a = a) :
    0 ≤ F.fl (a / F.fl (b + a)) ∧ F.fl (a / F.fl (b + a)) ≤ 1 := by
  have h2 : a ≤ F.fl (b + a) := le_fl_of_le F hs (by linarith)
  have h3 : 0 ≤ F.fl (b + a) := fl_nonneg F (by linarith)
  exact ⟨fl_nonneg F (div_nonneg ha h3), fl_le_of_le F h1 (div_le_one_of_le₀ h2 h3)⟩

lemma computeSandFracR_bounds {P : Params L W m K} {eta0 : Grid L W K} {S : State L W K} {c : Cell L W}
    (hbc : 0 ≤ F.fl P.sandFracBc ∧ F.fl P.sandFracBc ≤ 1)
    (hm : 0 ≤ F.fl (S.depSand c / F.fl (S.depMud c + S.depSand c)) ∧
      F.fl (S.depSand c / F.fl (S.depMud c + S.depSand c)) ≤ 1)
    (h1 : 0 ≤ S.sandFrac c ∧ S.sandFrac c ≤ 1) (h2 : 0 ≤ S.activeLayer c ∧ S.activeLayer c ≤ 1) :
    (0 ≤ (computeSandFracR F P eta0 S).sandFrac c ∧ (computeSandFracR F P eta0 S).sandFrac c ≤ 1) ∧
      0 ≤ (computeSandFracR F P eta0 S).activeLayer c ∧ (computeSandFracR F P eta0 S).activeLayer c ≤ 1 := by
  have key : ∀ (p : Prop) [Decidable p] (a b : K), 0 ≤ a ∧ a ≤ 1 → 0 ≤ b ∧ b ≤ 1 →
      0 ≤ (if p then a else b) ∧ (if p then a else b) ≤ 1 := by
    intro p _ a b ha hb
    split_ifs <;> assumption
  unfold computeSandFracR
  simp only [assign_any]
  simp only [assign]
  refine ⟨key _ _ _ hm ?_, key _ _ _ hm h2⟩
  split_ifs
  · exact key _ _ _ h2 (key _ _ _ hbc h1)
  · exact h1

/-- C101: surface sand fraction and active layer stay in [0, 1] for any number of timesteps, in rounded
arithmetic. -/
theorem C101_fractions {g : Rng K σ} (h1 : F.fl 1 = 1) {Ps : List (Params L W m K)}
    (hPs : ∀ P ∈ Ps, 0 ≤ P.sandFracBc ∧ P.sandFracBc ≤ 1) {S S' : State L W K}
    {s s' : σ} {ls : List (StepLog L W K)} (h : timestepsR F D g Ps S s = .ok (S', ls, s'))
    (h0 : ∀ c, (0 ≤ S.sandFrac c ∧ S.sandFrac c ≤ 1) ∧ 0 ≤ S.activeLayer c ∧ S.activeLayer c ≤ 1) :
    ∀ c, (0 ≤ S'.sandFrac c ∧ S'.sandFrac c ≤ 1) ∧ 0 ≤ S'.activeLayer c ∧ S'.activeLayer c ≤ 1 := by
  refine (timestepsR_inv (g := g) (A := fun P => 0 ≤ P.sandFracBc ∧ P.sandFracBc ≤ 1)
    (I := fun T => ∀ c, (0 ≤ T.sandFrac c ∧ T.sandFrac c ≤ 1) ∧ 0 ≤ T.activeLayer c ∧
      T.activeLayer c ≤ 1) (J := fun _ => True) ?_ h hPs h0).1
  intro P T s T' l s' ⟨hb0, hb1⟩ hI ht
  refine ⟨fun c => ?_, trivial⟩
  obtain ⟨s1, hw, hsed, h3, rfl⟩ := timestepR_ok ht
  obtain ⟨-, -, -, -, -, -, -, w8, w9⟩ := C100_ground hw
  obtain ⟨-, -, -, -, r5, r6, -⟩ := routeSedimentR_water hsed
  obtain ⟨d1, d2, d3⟩ := routeSedimentR_deposits hsed c
  have hm := mixture_bounds h1 d1 d2 d3
  have hbc : 0 ≤ F.fl P.sandFracBc ∧ F.fl P.sandFracBc ≤ 1 := ⟨fl_nonneg F hb0, fl_le_of_le F h1 hb1⟩
  have e1 : l.routed.sandFrac c = T.sandFrac c := by rw [r5, w8]
  have e2 : l.routed.activeLayer c = T.activeLayer c := by rw [r6, w9]
  have hIc := hI c
  rw [← e1, ← e2] at hIc
  rw [applySubsidenceR_frame]
  exact computeSandFracR_bounds hbc (by exact hm) (by exact hIc.1) (by exact hIc.2)

/-! ## Land -/

lemma sedStepR_other {g : Rng K σ} {k : Sed} {P : Params L W m K} {st st1 : SedSt L W K} {px py : ℤ}
    {res res1 : K} {s s1 : σ} {r : SedRec L W K} {c : Cell L W}
    (h : sedStepR F D g k P st px py res s = .ok (st1, res1, r, s1)) (hc : r.cell ≠ c) :
    st1.S.eta c = st.S.eta c := by
  obtain ⟨c0, d, c', cp, w, -, -, -, -, -, -, -, -, -, -, rfl, -, hb, -, -, ha, h1, -⟩ := sedStepR_ok h
  rw [recordDepositR_frame, hb, fieldsAtR_frame] at ha
  rw [h1, ha]
  exact Function.update_of_ne hc.symm _ _

lemma sedLoopR_other {g : Rng K σ} {k : Sed} {P : Params L W m K} {c : Cell L W} :
    ∀ n st px py res s st' res' rs s', sedLoopR F D g k P n st px py res s = .ok (st', res', rs, s') →
      (∀ r ∈ rs, r.cell ≠ c) → st'.S.eta c = st.S.eta c := by
  intro n
  induction n with
  | zero => intro st px py res s st' res' rs s' h; simp [sedLoopR] at h
  | succ n ih =>
    intro st px py res s st' res' rs s' h hr
    unfold sedLoopR at h
    generalize hs : sedStepR F D g k P st px py res s = x at h
    cases x with
    | error e => simp at h
    | ok x =>
      obtain ⟨st1, res1, r, s1⟩ := x
      simp only at h
      split_ifs at h with hc
      · simp only [Except.ok.injEq, Prod.mk.injEq] at h
        obtain ⟨rfl, rfl, rfl, rfl⟩ := h
        exact sedStepR_other hs (hr r (by simp))
      · generalize hl : sedLoopR F D g k P n st1 r.new.1 r.new.2 res1 s1 = y at h
        cases y with
        | error e => simp at h
        | ok y =>
          obtain ⟨st2, res2, rs2, s2⟩ := y
          simp only [Except.ok.injEq, Prod.mk.injEq] at h
          obtain ⟨rfl, rfl, rfl, rfl⟩ := h
          rw [ih _ _ _ _ _ _ _ _ _ hl (fun r' h' => hr r' (List.mem_cons_of_mem _ h'))]
          exact sedStepR_other hs (hr r List.mem_cons_self)

/-- C101: a cell that no parcel goes to keeps its bed. -/
theorem C101_untouched {g : Rng K σ} {k : Sed} {P : Params L W m K} {S S' : State L W K} {s s' : σ}
    {logs : List (SedLog L W K)} (h : routeParcelsR F D g k P S s = .ok (S', logs, s')) {c : Cell L W}
    (hc : ∀ l ∈ logs, ∀ r ∈ l.steps, r.cell ≠ c) : S'.eta c = S.eta c := by
  obtain ⟨starts, st, -, hp, rfl⟩ := routeParcelsR_ok h
  have := sedParcelsR_induct (F := F) (D := D) (g := g) (k := k) (P := P)
    (fun st logs => (∀ l ∈ logs, ∀ r ∈ l.steps, r.cell ≠ c) → st.S.eta c = S.eta c) (by
      intro st logs py c' s st' res rs s' hJ hc' hl hall
      rw [sedLoopR_other _ _ _ _ _ _ _ _ _ _ hl
        (fun r hr => hall ⟨c'.2, rs, res⟩ (by simp) r hr)]
      have : (enterStateR F D k P st c').S.eta c = st.S.eta c := by cases k <;> rfl
      rw [this]
      exact hJ (fun l hl' => hall l (by simp [hl']))) _ _ [] _ _ _ _ (fun _ => rfl) hp
  exact this (by simpa using hc)

lemma move_not_land {P : Params L W m K} {r : SedRec L W K} (h : SedMove P r) : P.cellType r.cell ≠ -2 := by
  obtain ⟨-, -, -, ⟨-, -, hm⟩ | ⟨-, -, -, hm⟩⟩ := h
  · exact hm
  · rw [hm]; omega

/-- C101: the bed of a land cell that does not subside stays the same for any number of timesteps, to the
last digit. -/
theorem C101_land {g : Rng K σ} (hFD : Within F D) (hg : PositiveDraws g) {Ps : List (Params L W m K)}
    {c : Cell L W} (hPs : ∀ P ∈ Ps, WaterSetup P ∧ SedDomain P ∧ 0 ≤ P.h0 ∧ P.cellType c = -2 ∧ P.sigma c = 0)
    {S S' : State L W K} (hd : ∀ c, 0 ≤ S.depth c) (hn : 0 < S.ncols) (hS : F.fl (S.eta c) = S.eta c)
    {s s' : σ} {ls : List (StepLog L W K)}
    (h : timestepsR F D g Ps S s = .ok (S', ls, s')) : S'.eta c = S.eta c := by
  have := timestepsR_inv (g := g)
    (A := fun P => WaterSetup P ∧ SedDomain P ∧ 0 ≤ P.h0 ∧ P.cellType c = -2 ∧ P.sigma c = 0)
    (I := fun T => T.eta c = S.eta c ∧ (∀ c, 0 ≤ T.depth c) ∧ 0 < T.ncols) (J := fun _ => True) (by
      intro P T s T' l s' ⟨hW, hP, h0, hl, hs⟩ ⟨hI, hd, hn⟩ ht
      obtain ⟨T1, l1, s1, ht1, hd1, hn1, -, -, mv⟩ := C101_update hFD hg hW hP h0 hd hn s
      rw [ht] at ht1
      cases ht1
      refine ⟨⟨?_, hd1, hn1⟩, trivial⟩
      have hin : ¬ InletCell P c := by
        rintro ⟨e1, k, e2⟩
        have := (hP.inlet k).2
        have e : ((0 : Fin L), P.inlet k) = c := Prod.ext (Fin.ext (by simp [e1])) e2
        rw [e] at this
        exact this hl
      have hnot : ∀ x ∈ l.sand ++ l.mud, ∀ r ∈ x.steps, r.cell ≠ c := by
        rintro x hx r hr rfl
        exact move_not_land (mv x hx r hr) hl
      obtain ⟨s1, h1, h2, h3, -⟩ := timestepR_ok ht
      obtain ⟨r, -⟩ := step_resultR ht
      obtain ⟨S1, s2, e1, e2⟩ := routeSedimentR_ok h2
      have q1 : S1.eta c = S.eta c := by
        rw [C101_untouched e1 (fun x hx => hnot x (List.mem_append_left _ hx))]
        change l.watered.eta c = _
        rw [(C100_ground h1).1, hI]
      have q2 : l.routed.eta c = S.eta c := by
        rw [C101_untouched e2 (fun x hx => hnot x (List.mem_append_right _ hx))]
        change topoDiffusionR F D P.cellType P.diffMult S1.qs P.Ncross S1.eta c = _
        rw [topoDiffusionR_held _ _ _ _ (by rw [q1, hS]) (.inl hl), q1]
      rw [r.bed c hin, q2, hs, sub_zero, hFD _ hS, hS, ite_self]) h hPs ⟨rfl, hd, hn⟩
  exact this.1.1

/-! ## The composition of the bed -/

/-- C101: the surface sand fraction of each cell after a timestep, as in C33, with rounded comparisons. -/
theorem C101_composition {g : Rng K σ} {P : Params L W m K} (ht : 0 ≤ P.actThick) {S S' : State L W K}
    {s s' : σ} {l : StepLog L W K} (h : timestepR F D g P S s = .ok (S', l, s')) {c : Cell L W}
    (hS : F.fl (S.eta c) = S.eta c) :
    (0 < S'.depSand c ∨ F.fl (1 / 1000000) < S'.depMud c →
      S'.sandFrac c = F.fl (S'.depSand c / F.fl (S'.depMud c + S'.depSand c)) ∧
      S'.activeLayer c = F.fl (S'.depSand c / F.fl (S'.depMud c + S'.depSand c))) ∧
    (¬ (0 < S'.depSand c ∨ F.fl (1 / 1000000) < S'.depMud c) → S'.activeLayer c = S.activeLayer c ∧
      (S'.eta c < F.fl (S.eta c - F.fl P.actThick) → S'.sandFrac c = F.fl P.sandFracBc) ∧
      (F.fl (S.eta c - F.fl P.actThick) ≤ S'.eta c → S'.eta c < S.eta c →
        S'.sandFrac c = S.activeLayer c) ∧
      (S.eta c ≤ S'.eta c → S'.sandFrac c = S.sandFrac c)) := by
  obtain ⟨s1, h1, h2, h3, rfl⟩ := timestepR_ok h
  obtain ⟨-, -, -, -, -, -, -, w8, w9⟩ := C100_ground h1
  obtain ⟨-, -, -, -, r5, r6, -⟩ := routeSedimentR_water h2
  have hbot : F.fl (S.eta c - F.fl P.actThick) ≤ S.eta c :=
    fl_le_of_le F hS (by have := fl_nonneg F ht; linarith)
  rw [applySubsidenceR_frame]
  unfold finalizeTimestepR
  simp only
  generalize hT : ({ l.routed with
      eta := _, stage := _, depth := _ } : State L W K) = T
  have hTs : T.sandFrac = S.sandFrac ∧ T.activeLayer = S.activeLayer := by
    rw [← hT]
    exact ⟨r5.trans w8, r6.trans w9⟩
  obtain ⟨t3, t4⟩ := hTs
  have hdeg : ∀ c, T.eta c < S.eta c →
      anyCell (fun c => decide (F.fl (T.eta c - S.eta c) < 0)) = true := by
    intro c hc
    exact (anyCell_iff _).2 ⟨c, by simpa [fl_neg_iff] using hc⟩
  unfold computeSandFracR
  simp only [assign_any]
  rw [← t3, ← t4]
  by_cases hdep : 0 < T.depSand c ∨ F.fl (1 / 1000000) < T.depMud c
  · refine ⟨fun _ => ?_, fun hn => absurd hdep hn⟩
    unfold assign
    have : (decide (T.depSand c > 0) || decide (T.depMud c > F.fl (1 / 1000000))) = true := by
      simpa using hdep
    simp only [this, if_true]
    exact ⟨trivial, trivial⟩
  · refine ⟨fun hn => absurd hn hdep, fun _ => ?_⟩
    have hagg : (decide (T.depSand c > 0) || decide (T.depMud c > F.fl (1 / 1000000))) = false := by
      simpa using hdep
    refine ⟨by simp only [assign, hagg]; rfl, ?_, ?_, ?_⟩
    · intro hlow
      have hlt : T.eta c < S.eta c := lt_of_lt_of_le hlow hbot
      simp only [hdeg c hlt, if_true]
      simp only [assign, hagg]
      have h5 : ¬ (T.eta c ≥ F.fl (S.eta c - F.fl P.actThick)) := not_le.2 hlow
      simp [h5, hlow]
    · intro hge hlt
      simp only [hdeg c hlt, if_true]
      simp only [assign, hagg]
      simp [hge, fl_neg_iff, hlt]
    · intro hge
      split_ifs with hany
      · simp only [assign, hagg]
        have h5 : ¬ (T.eta c < F.fl (S.eta c - F.fl P.actThick)) := not_lt.2 (hbot.trans hge)
        have h6 : ¬ (T.eta c < S.eta c) := not_lt.2 hge
        simp [h5, fl_neg_iff, h6]
      · simp only [assign, hagg]
        simp

/-! ## Non-trivial cases -/

/-- Ten timesteps of the example domain run through in the arithmetic of the program; the theorems about
runs apply to it. -/
theorem C101_example {g : Rng ℚ σ} (hg : PositiveDraws g) (s : σ) : ∃ S' ls s',
    timestepsR single double g (List.replicate 10 exParams) exDeep s = .ok (S', ls, s') ∧ ls.length = 10 ∧
      Stored single S' ∧ S'.time = 10 ∧ ∀ l ∈ ls, WaterFloat single exParams l.watered ∧
      ∀ x ∈ l.sand ++ l.mud, ∀ r ∈ x.steps, StepFloat single double (routerParams single exParams) r := by
  have hFD : Within single double := within_binary _ _ (by norm_num)
  obtain ⟨S', ls, s', h, hl⟩ := C101_run (Ps := List.replicate 10 exParams) hFD hg
    (by
      intro P hP
      rw [List.eq_of_mem_replicate hP]
      exact ⟨exSetup, exSedDomain, by norm_num [exParams]⟩) (S := exDeep)
    (fun c => fl_nonneg single (by norm_num)) (by decide) s
  obtain ⟨a, b⟩ := C101_steps hFD single_small.1 single_small.2 (by decide +kernel) (by norm_num) (by norm_num)
    (Ps := List.replicate 10 exParams) (by
      intro P hP
      rw [List.eq_of_mem_replicate hP]
      exact ⟨exSedSetup, by norm_num [exParams], by norm_num [exParams],
        fun x y => add_nonneg (abs_nonneg x) (abs_nonneg y), by decide, by norm_num [exParams]⟩)
    exDeep_stored h
  refine ⟨S', ls, s', h, by simpa using hl, a, ?_, ?_⟩
  · rw [(C101_clock h).1]
    decide +kernel
  · intro l hl
    obtain ⟨P, hP, hw, hs⟩ := b l hl
    rw [List.eq_of_mem_replicate hP] at hw hs
    exact ⟨hw, hs⟩

/-- Flooding leaves a level surface as it is. -/
lemma flooding_level (hL : 2 ≤ L) (hW : 2 ≤ W) {eta depth : Grid L W K} {v dry : K} (hv : 0 ≤ v)
    (c : Cell L W) : floodingCorrection eta depth (fun _ => v) dry c = v := by
  simp only [floodingCorrection]
  by_cases hc : depth c > dry
  · simp [hc]
  · rw [if_neg hc]
    split_ifs with h1 h2
    · obtain ⟨n, hn, hd⟩ := (shore_iff hL hW depth dry c hc).1 h1
      obtain ⟨k, k1, k2⟩ := adjacent_off8 hn
      apply le_antisymm
      · refine Finset.sup'_le _ _ (fun k _ => ?_)
        rcases flood_term hL hW depth (fun _ => v) dry k c with ⟨n, -, -, -, h⟩ | ⟨-, h⟩
        · rw [h]
        · rw [h]; exact hv
      · rcases flood_term hL hW depth (fun _ => v) dry k c with ⟨n, -, -, -, h⟩ | ⟨h, -⟩
        · refine h.symm.le.trans ?_
          exact Finset.le_sup' (fun k => wetMaskNh depth dry k c * buildWeightArray (fun _ => v) false k c)
            (Finset.mem_univ k)
        · exact absurd ⟨n, k1, k2, hd⟩ h
    · rfl
    · rfl

/-- C101: in the arithmetic of the program the bed of the inlet is not the inlet depth below the surface:
for all draws it is not at the end of this timestep. So `inlet` of `EndFloat` cannot be an equation. -/
theorem C101_inlet_inexact {g : Rng ℚ σ} (hg : PositiveDraws g) (s : σ) :
    ∃ S' l s', timestepR single double g exParams exDeep s = .ok (S', l, s') ∧
      ∀ c, InletCell exParams c → S'.eta c + S'.depth c ≠ S'.stage c := by
  have hFD : Within single double := within_binary _ _ (by norm_num)
  obtain ⟨S', l, s', h, -⟩ := C101_update hFD hg exSetup exSedDomain (by norm_num [exParams]) (S := exDeep)
    (fun c => fl_nonneg single (by norm_num)) (by decide) s
  refine ⟨S', l, s', h, fun c hc => ?_⟩
  obtain ⟨s1, h1, h2, h3, -⟩ := timestepR_ok h
  obtain ⟨r, -⟩ := step_resultR h
  have hst : l.routed.stage = fun _ => single.fl (1 / 10) := by
    rw [(routeSedimentR_water h2).1]
    funext c
    exact (exDeep_level h1 c).1
  have e : S'.stage c = single.fl (1 / 10) := by
    have hv : (0 : ℚ) ≤ single.fl (1 / 10) := fl_nonneg single (by norm_num)
    rw [r.stage, hst, flooding_level (by norm_num) (by norm_num) hv, h3]
    change max _ (single.fl 0) = _
    rw [fl_zero, max_eq_left hv]
  rw [r.inletBed c hc, r.inletDepth c hc, e]
  decide +kernel

end Verif.Props
