import Verif.Model.Series
import Verif.Spec.Series
import Verif.Props.DocClasses
import Verif.Props.Assign
import Verif.Props.Created

/-!
# C117: a velocity of the inlet that changes with time
-/

set_option linter.unusedSectionVars false
set_option linter.unusedSimpArgs false
set_option linter.unusedVariables false

namespace Verif.Props

open Verif.Model Verif.Lemmas Verif.Spec

variable {K : Type*} [Field K] [LinearOrder K] [IsStrictOrderedRing K] {σ : Type*} {L W m : ℕ}

/-! ## The series -/

/-- C117: between bounds of the values of the series the velocity stays, at any time, whatever the times of its points. -/
theorem C117_bounds {lo hi : K} : ∀ {p : K × K} {ps : List (K × K)}, (∀ q ∈ p :: ps, lo ≤ q.2 ∧ q.2 ≤ hi) → ∀ t,
    lo ≤ interp p ps t ∧ interp p ps t ≤ hi
  | p, [], h, t => h p (by simp)
  | p, q :: ps, h, t => by
    rw [interp]
    have hp := h p (by simp)
    have hq := h q (by simp)
    split_ifs with h1 h2
    · exact hp
    · push Not at h1
      have hd : 0 < q.1 - p.1 := by linarith
      set r := (t - p.1) / (q.1 - p.1) with hr
      have r0 : 0 ≤ r := div_nonneg (by linarith) hd.le
      have r1 : r ≤ 1 := (div_le_one hd).2 (by linarith)
      have e : (q.2 - p.2) / (q.1 - p.1) * (t - p.1) + p.2 = r * q.2 + (1 - r) * p.2 := by
        rw [hr]
        field_simp
        ring
      rw [e]
      constructor <;> nlinarith
    · exact C117_bounds (fun x hx => h x (List.mem_cons_of_mem _ hx)) t

lemma interp_on : ∀ {p : K × K} {ps : List (K × K)} (t : K), OnSeries (p :: ps) t (interp p ps t)
  | p, [], t => by
    rcases le_total t p.1 with h | h
    · exact .inl ⟨p, by simp, h, rfl⟩
    · exact .inr (.inl ⟨p, by simp, h, rfl⟩)
  | p, q :: ps, t => by
    rw [interp]
    split_ifs with h1 h2
    · exact .inl ⟨p, by simp, h1, rfl⟩
    · push Not at h1
      have hd : 0 < q.1 - p.1 := by linarith
      refine .inr (.inr ⟨0, p, q, rfl, rfl, h1.le, h2.le, ?_⟩)
      field_simp
      ring
    · push Not at h1 h2
      rcases interp_on (p := q) (ps := ps) t with ⟨a, ha, h3, h4⟩ | ⟨a, ha, h3, h4⟩ | ⟨i, a, b, h3, h4, h5⟩
      · simp at ha
        subst ha
        have e : t = q.1 := le_antisymm h3 h2
        refine .inr (.inr ⟨0, p, q, rfl, rfl, h1.le, h3, ?_⟩)
        rw [h4, e]
      · refine .inr (.inl ⟨a, ?_, h3, h4⟩)
        rw [List.getLast?_cons_cons]
        exact ha
      · exact .inr (.inr ⟨i + 1, a, b, by simpa using h3, by simpa using h4, h5⟩)

lemma on_unique : ∀ {p : K × K} {ps : List (K × K)} {t v : K}, (p :: ps).Pairwise (fun a b => a.1 < b.1) →
    OnSeries (p :: ps) t v → v = interp p ps t
  | p, [], t, v, hs, h => by
    rw [interp]
    rcases h with ⟨a, ha, h3, h4⟩ | ⟨a, ha, h3, h4⟩ | ⟨i, a, b, h3, h4, h5⟩
    · simp at ha
      rw [h4, ha]
    · simp at ha
      rw [h4, ha]
    · simp at h4
  | p, q :: ps, t, v, hs, h => by
    have hpq : ∀ x ∈ q :: ps, p.1 < x.1 := (List.pairwise_cons.1 hs).1
    have hd : 0 < q.1 - p.1 := by linarith [hpq q (by simp)]
    have hs' := (List.pairwise_cons.1 hs).2
    rw [interp]
    rcases h with ⟨a, ha, h3, h4⟩ | ⟨a, ha, h3, h4⟩ | ⟨i, a, b, h3, h4, h5, h6, h7⟩
    · simp at ha
      subst ha
      rw [if_pos h3, h4]
    · rw [List.getLast?_cons_cons] at ha
      have hm : a ∈ q :: ps := List.mem_of_mem_getLast? ha
      have h8 := hpq a hm
      have h9 : q.1 ≤ a.1 := by
        rcases List.mem_cons.1 hm with e | e
        · rw [e]
        · exact ((List.pairwise_cons.1 hs').1 a e).le
      rw [if_neg (by linarith), if_neg (by linarith)]
      exact on_unique hs' (.inr (.inl ⟨a, ha, h3, h4⟩))
    · cases i with
      | zero =>
        simp at h3 h4
        subst h3 h4
        split_ifs with h1 h2
        · have e : t = p.1 := le_antisymm h1 h5
          rw [e, sub_self, mul_zero] at h7
          have := (mul_eq_zero.1 h7).resolve_right hd.ne'
          linarith
        · have : v - p.2 = (q.2 - p.2) / (q.1 - p.1) * (t - p.1) := by
            field_simp
            linarith
          linarith
        · have e : t = q.1 := le_antisymm h6 (by linarith)
          refine on_unique hs' (.inl ⟨q, by simp, h6, ?_⟩)
          rw [e] at h7
          have := mul_right_cancel₀ hd.ne' h7
          linarith
      | succ i =>
        simp at h3 h4
        have hm : a ∈ q :: ps := List.mem_of_getElem? (by rw [h3])
        have h8 := hpq a hm
        have h9 : q.1 ≤ a.1 := by
          rcases List.mem_cons.1 hm with e | e
          · rw [e]
          · exact ((List.pairwise_cons.1 hs').1 a e).le
        rw [if_neg (by linarith), if_neg (by linarith)]
        exact on_unique hs' (.inr (.inr ⟨i, a, b, h3, by simpa using h4, h5, h6, h7⟩))

/-- C117: the velocity at a time is the one value that the series has there: on the line between the two points around it, and that
of the first or last point outside. -/
theorem C117_interp {p : K × K} {ps : List (K × K)} (hs : (p :: ps).Pairwise (fun a b => a.1 < b.1)) (t v : K) :
    OnSeries (p :: ps) t v ↔ v = interp p ps t :=
  ⟨on_unique hs, fun h => by rw [h]; exact interp_on t⟩

/-! ## Updates -/

variable [FloorRing K] [NeZero L] [NeZero W]

lemma timestep2_frame {g : Rng K σ} {P R : Params L W m K} {S S' : State L W K} {l : StepLog L W K} {s s' : σ}
    (h : timestep2 g P R S s = .ok (S', l, s')) : S'.HSL = S.HSL + P.SLR * P.dt ∧
      ∀ k, S'.depth (0, P.inlet k) = P.h0 ∧
        (0 < P.itermax → P.nrm P.qw0 0 = P.qw0 → S'.qx (0, P.inlet k) = P.qw0 ∧ S'.qy (0, P.inlet k) = 0) := by
  unfold timestep2 at h
  split at h
  · cases h
  · rename_i S1 s1 h1
    split at h
    · cases h
    · rename_i S2 sand mud s2 h2
      cases h
      have e1 : (applySubsidence P S2).HSL = S2.HSL ∧ (applySubsidence P S2).qx = S2.qx ∧
          (applySubsidence P S2).qy = S2.qy := by
        unfold applySubsidence
        split
        · split <;> exact ⟨rfl, rfl, rfl⟩
        · exact ⟨rfl, rfl, rfl⟩
      have e2 : S2.HSL = S1.HSL ∧ S2.qx = S1.qx ∧ S2.qy = S1.qy := by
        unfold routeSediment2 at h2
        split at h2
        · cases h2
        · rename_i Sa sa ta ha
          simp only at h2
          split at h2
          · cases h2
          · rename_i Sb sb tb hb
            cases h2
            obtain ⟨-, a1, a2, -, -, -, a3, -⟩ := routeParcels_frame ha
            obtain ⟨-, b1, b2, -, -, -, b3, -⟩ := routeParcels_frame hb
            exact ⟨b3.trans a3, b1.trans a1, b2.trans a2⟩
      have e3 : S1.HSL = S.HSL := (routeWater_frame h1).2.1
      refine ⟨?_, fun k => ⟨?_, fun hit hn => ?_⟩⟩
      · change (applySubsidence P S2).HSL + P.SLR * P.dt = _
        rw [e1.1, e2.1, e3]
      · have hi := (isInlet_iff P (0, P.inlet k)).2 ⟨by simp, k, rfl⟩
        simp only [finalizeTimestep, computeSandFrac, assign, hi, if_true]
      · have := (C20_route hn hit h1).inlet (0, P.inlet k) ⟨by simp, k, rfl⟩
        change (applySubsidence P S2).qx _ = _ ∧ (applySubsidence P S2).qy _ = _
        rw [e1.2.1, e1.2.2, e2.2.1, e2.2.2]
        exact ⟨this.1, this.2.1⟩

/-- An update with any values in the routers runs through. -/
lemma timestep2_safe {g : Rng K σ} (hg : PositiveDraws g) {P R : Params L W m K} (hW : WaterSetup P)
    (hD : SedDomain (sedParams P R)) (h0 : 0 ≤ P.h0) {S : State L W K} (hd : ∀ c, 0 ≤ S.depth c) (hn : 0 < S.ncols) (s : σ) :
    ∃ S' l s', timestep2 g P R S s = .ok (S', l, s') ∧ (∀ c, 0 ≤ S'.depth c) ∧ 0 < S'.ncols := by
  have hq := C112_quiet (U := (plainClass : UserClass L W m K Unit σ))
    ⟨fun s c => ⟨c.extra, rfl⟩, fun s c => ⟨c.extra, rfl⟩, fun s => rfl⟩ g
    ⟨P, R, S, S.eta, ⟨fun _ => 0, fun _ => 0, fun _ => 0⟩, [], (), s⟩
  obtain ⟨c', h, hc'⟩ := C112_safe (U := (plainClass : UserClass L W m K Unit σ))
    ⟨fun s d hd => ⟨d, rfl, hd⟩, fun s d hd => ⟨d, rfl, hd⟩, fun s f hf => by cases hf⟩ hg 1
    (c := ⟨P, R, S, S.eta, ⟨fun _ => 0, fun _ => 0, fun _ => 0⟩, [], (), s⟩)
    ⟨hW, hD, h0, hd, hn, ⟨[], List.Forall₂.nil⟩⟩
  obtain ⟨c1, h1, h2⟩ := andThen_ok h
  cases h2
  rw [h1] at hq
  dsimp only at hq
  generalize hr : timestep2 g P R S s = r at hq
  cases r with
  | error e => simp [Except.map] at hq
  | ok x =>
    obtain ⟨S1, l, s1⟩ := x
    simp only [Except.map, Except.ok.injEq] at hq
    unfold shown at hq
    simp only [Prod.mk.injEq] at hq
    refine ⟨S1, l, s1, rfl, ?_, ?_⟩
    · rw [← hq.2.2.1]
      exact hc'.depth
    · rw [← hq.2.2.1]
      exact hc'.ncols

/-- The parameters with another velocity. -/
def withVelocity (I : Input K) (v : K) : Input K := { I with u0 := v }

/-- A model created with the parameters `P` and the input `I` that now has the velocity `v`. -/
structure HasVelocity (P : Params L W m K) (I : Input K) (X : Obj L W m K) (v : K) : Prop where
  input : X.I = withVelocity I v
  bc : ∃ D, boundaryConditions (withVelocity I v) L W = .ok D ∧ X.P = afterBc P (withVelocity I v) D
  routers : X.R = P
  rows : X.rows = P.NpWater
  sigma : P.toggleSub = true → X.hasSigma = true
  depth : ∀ c, 0 ≤ X.S.depth c
  ncols : 0 < X.S.ncols

lemma bc_velocity {I : Input K} {L W : ℤ} {D : Derived K} (h : boundaryConditions I L W = .ok D) {v : K} (hv : v ≠ 0) :
    ∃ D', boundaryConditions (withVelocity I v) L W = .ok D' ∧ D'.L0 = D.L0 ∧ D'.N0 = D.N0 ∧ D'.stepmax = D.stepmax ∧
      D'.dVs = D.dVs ∧ D'.dt * v = D.dt * I.u0 := by
  have b := bc_ok h
  have hQ : v * I.h0 * (D.N0 : K) * I.dx * (I.C0pct * 1 / 100) ≠ 0 := by
    have h1 := b.Qs
    rw [b.eQs0, b.eQw0, b.eC0] at h1
    intro h2
    apply h1
    simp only [mul_eq_zero] at h2 ⊢
    tauto
  have hex : ∃ D', boundaryConditions (withVelocity I v) L W = .ok D' := by
    unfold boundaryConditions withVelocity
    simp only
    rw [if_neg]
    · exact ⟨_, rfl⟩
    · have h1 := b.V
      have h2 := b.Nc
      rw [b.eNcross, b.edVs] at h2
      rw [b.eV0] at h1 h2
      rw [b.eN0] at h2 hQ
      push Not
      exact ⟨hv, hQ, b.iter, h1, h2⟩
  obtain ⟨D', hD'⟩ := hex
  have b' := bc_ok hD'
  have eN : D'.N0 = D.N0 := by rw [b.eN0, b'.eN0]; rfl
  have eV : D'.dVs = D.dVs := by rw [b.edVs, b'.edVs, eN, b.eV0, b'.eV0]; rfl
  refine ⟨D', hD', by rw [b.eL0, b'.eL0]; rfl, eN, ?_, eV, ?_⟩
  · cases hs : I.stepmax with
    | none => rw [b.estepNone hs, b'.estepNone hs]
    | some x => rw [b.estepSome x hs, b'.estepSome x hs]
  · rw [b.edt, b'.edt, eV]
    have e1 : D'.Qs0 * I.u0 = D.Qs0 * v := by
      rw [b.eQs0, b'.eQs0, b.eQw0, b'.eQw0, b.eC0, b'.eC0, eN]
      simp only [withVelocity]
      ring
    have n1 := b.Qs
    have n2 := b'.Qs
    rw [div_mul_eq_mul_div, div_mul_eq_mul_div, div_eq_div_iff n2 n1, mul_assoc, mul_assoc, mul_comm I.u0, e1, mul_comm v]

/-- What a model must be like for velocities from `lo` on. -/
structure ForVelocities (P : Params L W m K) (I : Input K) (lo : K) : Prop where
  made : ∃ D, boundaryConditions I L W = .ok D ∧ P = afterBc P I D
  water : WaterSetup P
  sediment : SedDomain P
  pos : 0 < lo
  slope0 : 0 ≤ I.S0
  dx : 0 < I.dx
  h0 : 0 < I.h0
  u0 : 0 < I.u0
  dt : 0 < P.dt
  slope : 981 / 100 * I.S0 * I.dx ≤ lo * lo
  nrm : ∀ x, 0 ≤ x → P.nrm x 0 = x
  itermax : 0 < P.itermax

/-- One update: the new velocity is that of the series at the time when the update starts. -/
lemma series_step {O : Oracle K} {g : Rng K σ} (hg : PositiveDraws g) {P : Params L W m K} {I : Input K} {lo : K}
    (hP : ForVelocities P I lo) {p : K × K} {ps : List (K × K)} (hps : ∀ q ∈ p :: ps, lo ≤ q.2) {X : Obj L W m K} {v0 : K}
    (hX : HasVelocity P I X v0) (s : σ) :
    ∃ X' s' v, v = interp p ps X.S.time ∧ lo ≤ v ∧ seriesUpdate O g p ps X s = .ok (X', s') ∧ HasVelocity P I X' v ∧
      X'.P.u0 = v ∧ X'.P.qw0 = v * I.h0 ∧ X'.P.dt * v = P.dt * I.u0 ∧ X'.S.time = X.S.time + X'.P.dt ∧
      X'.S.HSL = X.S.HSL + P.SLR * X'.P.dt ∧ X'.P.sigma = P.sigma ∧
      ∀ k, X'.S.depth (0, P.inlet k) = I.h0 ∧ X'.S.qx (0, P.inlet k) = v * I.h0 ∧ X'.S.qy (0, P.inlet k) = 0 := by
  set v := interp p ps X.S.time with hv
  have hlo : lo ≤ v := by
    have hmax : ∃ hi, ∀ q ∈ p :: ps, q.2 ≤ hi := by
      clear hps hv
      generalize p :: ps = l
      induction l with
      | nil => exact ⟨0, by simp⟩
      | cons q qs ih =>
        obtain ⟨hi, h⟩ := ih
        refine ⟨max q.2 hi, fun r hr => ?_⟩
        rcases List.mem_cons.1 hr with e | e
        · rw [e]
          exact le_max_left _ _
        · exact (h r e).trans (le_max_right _ _)
    obtain ⟨hi, hhi⟩ := hmax
    exact (C117_bounds (fun q hq => ⟨hps q hq, hhi q hq⟩) X.S.time).1
  have hv0 : 0 < v := hP.pos.trans_le hlo
  obtain ⟨D0, hD0, eP⟩ := hP.made
  obtain ⟨D, hD, f1, f2, f3, f4, f5⟩ := bc_velocity hD0 hv0.ne'
  have b := bc_ok hD
  obtain ⟨D1, hD1, eX⟩ := hX.bc
  -- the object before the update
  let Y : Obj L W m K := { X with I := withVelocity I v, P := afterBc P (withVelocity I v) D }
  have hass : deed O g X s (.assign (.u0 v)) = .ok ({ X with I := withVelocity I v, P := { X.P with u0 := v } }, s) := by
    simp only [deed, objAssign, badAssign, Bool.false_eq_true, if_false]
    rw [hX.input]
    rfl
  have hbc : deed O g { X with I := withVelocity I v, P := { X.P with u0 := v } } s .createBc = .ok (Y, s) := by
    simp only [deed]
    rw [hD]
    simp only
    rw [eX]
    rfl
  have eL0 : (D.L0 : ℤ) = P.L0 := by rw [f1, eP]; rfl
  have eSt : D.stepmax.toNat = P.stepmax := by rw [f3, eP]; rfl
  have hW : WaterSetup Y.P := { hP.water with
    hL0 := by change (2 : ℤ) ≤ D.L0; rw [eL0]; exact hP.water.hL0
    hL := by change D.L0 + 2 ≤ _; rw [eL0]; exact hP.water.hL
    land := by intro c hc; refine hP.water.land c ?_; rw [← eL0]; exact hc
    gamma0 := by
      change 0 ≤ D.gamma
      rw [b.egamma]
      exact div_nonneg (mul_nonneg (mul_nonneg (by norm_num) hP.slope0) hP.dx.le) (mul_self_nonneg _)
    gamma1 := by
      change D.gamma ≤ 1
      rw [b.egamma]
      refine (div_le_one (mul_pos hv0 hv0)).2 (hP.slope.trans ?_)
      exact mul_le_mul hlo hlo hP.pos.le hv0.le
    steps := by change 4 ≤ D.stepmax.toNat; rw [eSt]; exact hP.water.steps }
  have hS : SedDomain (sedParams Y.P Y.R) := by
    change SedDomain (sedParams (afterBc P (withVelocity I v) D) X.R)
    rw [hX.routers]
    exact { hP.sediment with }
  obtain ⟨S', l, s', ht, hd, hn⟩ := timestep2_safe hg hW hS hP.h0.le (S := Y.S) hX.depth hX.ncols s
  have hup : deed O g Y s .update = .ok ({ Y with S := S' }, s') := by
    simp only [deed, objUpdate]
    rw [if_neg]
    · rw [ht]
      simp only
      rw [if_neg]
      rintro ⟨a1, a2, -⟩
      have := hX.sigma a1
      rw [show Y.hasSigma = X.hasSigma from rfl, this] at a2
      cases a2
    · rintro ⟨-, h⟩
      exact h hX.rows.symm
  have hrun : seriesUpdate O g p ps X s = .ok ({ Y with S := S' }, s') := by
    unfold seriesUpdate
    rw [← hv, deeds, hass]
    simp only
    rw [deeds, hbc]
    simp only
    rw [deeds, hup]
    rfl
  obtain ⟨t1, t2⟩ := timestep2_frame ht
  refine ⟨{ Y with S := S' }, s', v, rfl, hlo, hrun, ⟨rfl, ⟨D, hD, rfl⟩, hX.routers, hX.rows, hX.sigma, hd, hn⟩, rfl, b.eqw0, ?_,
    timestep2_time ht, t1, rfl, fun k => ?_⟩
  · change D.dt * v = _
    rw [f5, show P.dt = D0.dt by rw [eP]; rfl]
  · obtain ⟨a1, a2⟩ := t2 k
    have hq : Y.P.qw0 = v * I.h0 := b.eqw0
    obtain ⟨a3, a4⟩ := a2 hP.itermax (by
      rw [hq]
      exact hP.nrm _ (mul_nonneg hv0.le hP.h0.le))
    exact ⟨a1, by rw [← hq]; exact a3, a4⟩

/-- What the created model is like after updates that have brought it to the velocity `v`. -/
structure Follows (P : Params L W m K) (I : Input K) (S0 : State L W K) (p : K × K) (ps : List (K × K)) (t v : K)
    (X : Obj L W m K) : Prop where
  /-- the velocity and the discharge of the inlet -/
  velocity : OnSeries (p :: ps) t v ∧ X.P.u0 = v ∧ X.P.qw0 = v * I.h0
  /-- the volume that flows in during an update is always the same -/
  volume : X.P.dt * v = P.dt * I.u0
  time : X.S.time = t + X.P.dt
  sea : X.S.HSL = S0.HSL + P.SLR * (X.S.time - S0.time)
  inlet : ∀ k, X.S.depth (0, P.inlet k) = I.h0 ∧ X.S.qx (0, P.inlet k) = v * I.h0 ∧ X.S.qy (0, P.inlet k) = 0
  /-- what does not follow -/
  behind : X.R = P ∧ X.P.sigma = P.sigma

lemma series_run {O : Oracle K} {g : Rng K σ} (hg : PositiveDraws g) {P : Params L W m K} {I : Input K} {lo hi : K}
    (hP : ForVelocities P I lo) {p : K × K} {ps : List (K × K)} (hps : ∀ q ∈ p :: ps, lo ≤ q.2 ∧ q.2 ≤ hi) {X : Obj L W m K}
    {v0 : K} (hX : HasVelocity P I X v0) (s : σ) : ∀ n : ℕ, ∃ X' s', seriesRun O g p ps n X s = .ok (X', s') ∧
      (∃ v, HasVelocity P I X' v) ∧ X.S.time + n * (P.dt * I.u0 / hi) ≤ X'.S.time ∧
      X'.S.time ≤ X.S.time + n * (P.dt * I.u0 / lo) ∧ X'.S.HSL = X.S.HSL + P.SLR * (X'.S.time - X.S.time)
  | 0 => ⟨X, s, rfl, ⟨v0, hX⟩, by simp, by simp, by simp⟩
  | n + 1 => by
    obtain ⟨X1, s1, h1, ⟨v1, h2⟩, h3, h4, h5⟩ := series_run hg hP hps hX s n
    obtain ⟨X', s', v, e1, e2, e3, e4, e5, e6, e7, e8, e9, e10, e11⟩ :=
      series_step (O := O) hg hP (fun q hq => (hps q hq).1) h2 s1
    have hhi : v ≤ hi := by
      rw [e1]
      exact (C117_bounds hps _).2
    have hv0 := hP.pos.trans_le e2
    have hh0 := hv0.trans_le hhi
    have hc : 0 < P.dt * I.u0 := mul_pos hP.dt hP.u0
    have edt : X'.P.dt = P.dt * I.u0 / v := by rw [← e7, mul_div_cancel_right₀ _ hv0.ne']
    have d1 : P.dt * I.u0 / hi ≤ X'.P.dt := by
      rw [edt]
      exact div_le_div_of_nonneg_left hc.le hv0 hhi
    have d2 : X'.P.dt ≤ P.dt * I.u0 / lo := by
      rw [edt]
      exact div_le_div_of_nonneg_left hc.le hP.pos e2
    refine ⟨X', s', ?_, ⟨v, e4⟩, ?_, ?_, ?_⟩
    · rw [seriesRun, h1]
      exact e3
    · rw [e8]
      push_cast
      linarith
    · rw [e8]
      push_cast
      linarith
    · rw [e9, h5, e8]
      ring

lemma created_fit {O : Oracle K} (hO : OracleOk O) {I : Input K} (hI : Runnable I) {lo : K} (hlo : 0 < lo)
    (hslope : 981 / 100 * I.S0 * I.dx ≤ lo * lo) :
    ∃ (L W m : ℕ) (_ : NeZero L) (_ : NeZero W) (P : Params L W m K) (S : State L W K),
      create O I = .ok ⟨L, W, m, P, S⟩ ∧ ForVelocities P (newObj I P S).I lo ∧
      HasVelocity P (newObj I P S).I (newObj I P S) I.u0 ∧ S.time = 0 ∧ S.HSL = I.HSL ∧ P.SLR = I.SLR := by
  obtain ⟨L, W, m, hL, hW, P, S, h, hw, hs, hsp, hr, hd, hn, hsig⟩ := C74_created hO hI
  obtain ⟨D, hD, -, hP⟩ := create_made h
  have hdt : 0 < P.dt := by
    obtain ⟨L', W', m', hL', hW', P', S', h', h2, -⟩ := C74_run hO hI (g := ⟨fun s : Unit => (1, s)⟩) (by
      intro s
      norm_num)
    rw [h] at h'
    cases h'
    exact h2
  refine ⟨L, W, m, hL, hW, P, S, h, ?_, ?_, ?_, ?_, ?_⟩
  · refine ⟨⟨D, hD, ?_⟩, hw, hs, hlo, hI.slope0, hI.accepted.dx, hI.flowing.h0, hI.flowing.u0, hdt, hslope, ?_, hr.itermax⟩
    · conv_lhs => rw [hP]
      conv_rhs => rw [hP]
      rfl
    · rw [hP]
      exact hO.nrmAxis
  · refine ⟨rfl, ⟨D, hD, ?_⟩, rfl, ?_, ?_, hd, hn⟩
    · conv_lhs => change P; rw [hP]
      conv_rhs => rw [hP]
      rfl
    · rw [hP]
      rfl
    · rw [hP]
      exact id
  all_goals
    obtain ⟨hA, D', hD', hs', e⟩ := create_ok h
    cases e
    rfl

/-- C117: a model of this class, created from a usable configuration, makes any number of updates if the velocities of the series
are positive and not too small for the slope. After each of them: the velocity is that of the series at the time when the
update started, the discharge of the inlet is this velocity times the depth, and the inlet cells have it; the time has gone on by
the time in which the same volume flows in as ever; the sea has risen with the time. What the routers of the sediment hold and
the subsidence of an update are still those of the configured velocity. -/
theorem C117_run {O : Oracle K} (hO : OracleOk O) {I : Input K} (hI : Runnable I) {g : Rng K σ} (hg : PositiveDraws g)
    {lo : K} (hlo : 0 < lo) (hslope : 981 / 100 * I.S0 * I.dx ≤ lo * lo) {p : K × K} {ps : List (K × K)}
    (hps : ∀ q ∈ p :: ps, lo ≤ q.2) :
    ∃ (L W m : ℕ) (_ : NeZero L) (_ : NeZero W) (P : Params L W m K) (S : State L W K),
      create O I = .ok ⟨L, W, m, P, S⟩ ∧ ∀ (n : ℕ) (s : σ), ∃ X s1 X' s' v,
        seriesRun O g p ps n (newObj I P S) s = .ok (X, s1) ∧
        seriesRun O g p ps (n + 1) (newObj I P S) s = .ok (X', s') ∧ lo ≤ v ∧ Follows P I S p ps X.S.time v X' := by
  obtain ⟨L, W, m, hL, hW, P, S, h, h1, h2, h3, h4, h5⟩ := created_fit hO hI hlo hslope
  refine ⟨L, W, m, hL, hW, P, S, h, fun n s => ?_⟩
  have hmax : ∃ hi, ∀ q ∈ p :: ps, q.2 ≤ hi := by
    clear hps
    generalize p :: ps = l
    induction l with
    | nil => exact ⟨0, by simp⟩
    | cons q qs ih =>
      obtain ⟨hi, h⟩ := ih
      refine ⟨max q.2 hi, fun r hr => ?_⟩
      rcases List.mem_cons.1 hr with e | e
      · rw [e]
        exact le_max_left _ _
      · exact (h r e).trans (le_max_right _ _)
  obtain ⟨hi, hhi⟩ := hmax
  obtain ⟨X, s1, r1, ⟨v1, r2⟩, -, -, r3⟩ := series_run (O := O) hg h1 (fun q hq => ⟨hps q hq, hhi q hq⟩) h2 s n
  obtain ⟨X', s', v, e1, e2, e3, e4, e5, e6, e7, e8, e9, e10, e11⟩ := series_step (O := O) hg h1 hps r2 s1
  refine ⟨X, s1, X', s', v, r1, by rw [seriesRun, r1]; exact e3, e2,
    ⟨⟨by rw [e1]; exact interp_on _, e5, e6⟩, e7, e8, ?_, e11, e4.routers, e10⟩⟩
  rw [e9, r3, e8]
  change S.HSL + P.SLR * (X.S.time - S.time) + _ = _
  ring

/-- C117: the loop of the documentation ends, for any end time and any such series, and after at most as many updates as the
greatest velocity needs; the model it ends with is that of some number of updates, has reached the end time, and no model
before it has. -/
theorem C117_ends {O : Oracle K} (hO : OracleOk O) {I : Input K} (hI : Runnable I) {g : Rng K σ} (hg : PositiveDraws g)
    {lo hi : K} (hlo : 0 < lo) (hslope : 981 / 100 * I.S0 * I.dx ≤ lo * lo) {p : K × K} {ps : List (K × K)}
    (hps : ∀ q ∈ p :: ps, lo ≤ q.2 ∧ q.2 ≤ hi) (tEnd : K) :
    ∃ (L W m : ℕ) (_ : NeZero L) (_ : NeZero W) (P : Params L W m K) (S : State L W K),
      create O I = .ok ⟨L, W, m, P, S⟩ ∧ ∀ (N : ℕ) (s : σ), tEnd * hi ≤ N * (P.dt * I.u0) →
        ∃ n X s', n ≤ N ∧ seriesLoop O g p ps tEnd N (newObj I P S) s = .ok (some (X, s')) ∧
          seriesRun O g p ps n (newObj I P S) s = .ok (X, s') ∧ tEnd ≤ X.S.time ∧
          ∀ k < n, ∃ Y s1, seriesRun O g p ps k (newObj I P S) s = .ok (Y, s1) ∧ Y.S.time < tEnd := by
  obtain ⟨L, W, m, hL, hW, P, S, h, h1, h2, h3, h4, h5⟩ := created_fit hO hI hlo hslope
  refine ⟨L, W, m, hL, hW, P, S, h, fun N s hN => ?_⟩
  have hh : 0 < hi := hlo.trans_le ((hps p (by simp)).1.trans (hps p (by simp)).2)
  -- the loop from the model after `k` updates
  have key : ∀ j k : ℕ, j + k = N → (∀ i < k, ∃ Y s1, seriesRun O g p ps i (newObj I P S) s = .ok (Y, s1) ∧ Y.S.time < tEnd) →
      ∀ X s1, seriesRun O g p ps k (newObj I P S) s = .ok (X, s1) →
        ∃ n X' s', n ≤ N ∧ seriesLoop O g p ps tEnd j X s1 = .ok (some (X', s')) ∧
          seriesRun O g p ps n (newObj I P S) s = .ok (X', s') ∧ tEnd ≤ X'.S.time ∧
          ∀ k < n, ∃ Y s1, seriesRun O g p ps k (newObj I P S) s = .ok (Y, s1) ∧ Y.S.time < tEnd := by
    intro j
    induction j with
    | zero =>
      intro k hk hb X s1 hX
      obtain ⟨X2, s2, r1, -, r2, -⟩ := series_run (O := O) hg h1 hps h2 s k
      rw [hX] at r1
      cases r1
      have ht : tEnd ≤ X.S.time := by
        refine le_trans ?_ r2
        change tEnd ≤ S.time + _
        rw [h3, zero_add, ← mul_div_assoc, le_div_iff₀ hh]
        have : k = N := by omega
        rw [this]
        exact hN
      refine ⟨k, X, s1, by omega, ?_, hX, ht, hb⟩
      unfold seriesLoop
      rw [if_neg (not_lt.2 ht)]
    | succ j ih =>
      intro k hk hb X s1 hX
      unfold seriesLoop
      split_ifs with ht
      · obtain ⟨X2, s2, r1, ⟨v1, r2⟩, -⟩ := series_run (O := O) hg h1 hps h2 s k
        rw [hX] at r1
        cases r1
        obtain ⟨X', s', v, e1, e2, e3, -⟩ := series_step (O := O) hg h1 (fun q hq => (hps q hq).1) r2 s1
        simp only
        rw [e3]
        refine ih (k + 1) (by omega) (fun i hi => ?_) X' s' (by rw [seriesRun, hX]; exact e3)
        rcases Nat.lt_succ_iff_lt_or_eq.1 hi with h' | h'
        · exact hb i h'
        · subst h'
          exact ⟨X, s1, hX, ht⟩
      · exact ⟨k, X, s1, by omega, rfl, hX, not_lt.1 ht, hb⟩
  exact key N 0 (by omega) (fun i hi => absurd hi (by omega)) _ s rfl

/-- C117: with a velocity of zero in the series the update that meets it raises the error of a division by zero. -/
theorem C117_zero {O : Oracle K} {g : Rng K σ} {p : K × K} {ps : List (K × K)} {X : Obj L W m K} (s : σ)
    (h : interp p ps X.S.time = 0) : seriesUpdate O g p ps X s = .error (.setup .zeroDivision) := by
  unfold seriesUpdate
  rw [h]
  simp [deeds, deed, objAssign, badAssign, boundaryConditions, setInput]

/-- C117 does not hold for the subsidence: it is still that of the configured velocity for each update, so with another velocity
the basin does not subside at the configured rate, in contrast to the sea level. -/
theorem C117_subsidence {O : Oracle K} {I : Input K} {P : Params L W m K} {S : State L W K}
    (h : create O I = .ok ⟨L, W, m, P, S⟩) (hs : I.toggleSub = true) (hr : I.subRate ≠ 0) (hdt : P.dt ≠ 0) {p : K × K}
    {ps : List (K × K)} {t v : K} {X : Obj L W m K} (hX : Follows P I S p ps t v X) (hv : v ≠ I.u0) (c : Cell L W)
    (hc : P.L0 ≤ c.1.val) : X.P.sigma c ≠ I.subRate * X.P.dt := by
  rw [hX.behind.2, (C84_created_heard h).2.2.2.2.2.2 hs c hc]
  intro e
  have e1 := mul_left_cancel₀ hr e
  have e2 := hX.volume
  rw [← e1] at e2
  exact hv (mul_left_cancel₀ hdt e2)

/-! ## Examples -/

/-- A flood: the velocity rises from one to two metres per second within ten days and falls again. -/
def exFlood : List (ℚ × ℚ) := [(864000, 2), (1728000, 1)]

example : (((0, 1) : ℚ × ℚ) :: exFlood).Pairwise (fun a b => a.1 < b.1) := by decide +kernel

-- halfway up, at the crest, and long after
example : interp (0, 1) exFlood 432000 = 3 / 2 ∧ interp (0, 1) exFlood 864000 = 2 ∧ interp (0, 1) exFlood 9999999 = 1 := by
  decide +kernel

-- the hypotheses of the theorems hold for the default configuration with this flood; the loop ends
example (s : Unit) : ∃ (L W m : ℕ) (_ : NeZero L) (_ : NeZero W) (P : Params L W m ℚ) (S : State L W ℚ),
    create exOracle exInput = .ok ⟨L, W, m, P, S⟩ ∧ ∃ N n X s', n ≤ N ∧
      seriesLoop exOracle constRng (0, 1) exFlood 1728000 N (newObj exInput P S) s = .ok (some (X, s')) ∧
      seriesRun exOracle constRng (0, 1) exFlood n (newObj exInput P S) s = .ok (X, s') ∧ 1728000 ≤ X.S.time := by
  have hps : ∀ q ∈ ((0, 1) : ℚ × ℚ) :: exFlood, (1 : ℚ) ≤ q.2 ∧ q.2 ≤ 2 := by decide +kernel
  obtain ⟨L, W, m, hL, hW, P, S, h, h1⟩ := C117_ends (lo := 1) (hi := 2) exOracleOk exRunnable exPositive (by norm_num)
    (by norm_num [exInput]) hps 1728000
  obtain ⟨L', W', m', hL', hW', P', S', h', hdt, -⟩ := C74_run exOracleOk exRunnable exPositive
  rw [h] at h'
  cases h'
  refine ⟨L, W, m, hL, hW, P, S, h, ?_⟩
  obtain ⟨N, hN⟩ := exists_nat_ge (1728000 * 2 / (P.dt * exInput.u0))
  have hp : 0 < P.dt * exInput.u0 := mul_pos hdt (by norm_num [exInput])
  obtain ⟨n, X, s', a, b, c, d, -⟩ := h1 N s (by rwa [div_le_iff₀ hp] at hN)
  exact ⟨N, n, X, s', a, b, c, d⟩

end Verif.Props
