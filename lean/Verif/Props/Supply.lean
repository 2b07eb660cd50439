import Verif.Spec.Supply
import Verif.Props.Budget
import Verif.Props.Settings

/-!
# C126: what the inlet supplies
-/

set_option linter.unusedSectionVars false
set_option linter.unusedSimpArgs false

namespace Verif.Props

open Verif.Model Verif.Lemmas Verif.Spec

variable {K : Type*} [Field K] [LinearOrder K] [IsStrictOrderedRing K] [FloorRing K] {σ : Type*} {L W m : ℕ}

section
variable [NeZero L] [NeZero W]

lemma sedLoop_enters {g : Rng K σ} {k : Sed} {P : Params L W m K} {n : ℕ} {st st' : SedSt L W K} {px py : ℤ}
    {res res' : K} {s s' : σ} {rs : List (SedRec L W K)} (h : sedLoop g k P n st px py res s = .ok (st', res', rs, s')) :
    ∃ r rs', rs = r :: rs' ∧ r.res = res := by
  cases n with
  | zero => simp [sedLoop] at h
  | succ n =>
    unfold sedLoop at h
    generalize hx : sedStep g k P st px py res s = x at h
    cases x with
    | error e => cases h
    | ok v =>
      obtain ⟨st1, res1, r, s1⟩ := v
      obtain ⟨c0, d, c, cp, w, -, -, -, -, -, -, -, -, -, -, -, hr, -⟩ := sedStep_ok hx
      simp only at h
      split_ifs at h with h1
      · simp only [Except.ok.injEq, Prod.mk.injEq] at h
        exact ⟨r, [], h.2.2.1.symm, hr⟩
      · generalize hy : sedLoop g k P n st1 r.new.1 r.new.2 res1 s1 = y at h
        cases y with
        | error e => cases h
        | ok v =>
          obtain ⟨st2, res2, rs2, s2⟩ := v
          simp only [Except.ok.injEq, Prod.mk.injEq] at h
          exact ⟨r, rs2, h.2.2.1.symm, hr⟩

lemma sedParcels_enters {g : Rng K σ} {k : Sed} {P : Params L W m K} : ∀ {pys : List ℤ} {st st' : SedSt L W K} {s s' : σ}
    {logs : List (SedLog L W K)}, sedParcels g k P pys st s = .ok (st', logs, s') →
    (logs.map entering).sum = logs.length * P.VpSed := by
  intro pys
  induction pys with
  | nil =>
    intro st st' s s' logs h
    simp only [sedParcels, Except.ok.injEq, Prod.mk.injEq] at h
    obtain ⟨-, rfl, -⟩ := h
    simp
  | cons py pys ih =>
    intro st st' s s' logs h
    unfold sedParcels at h
    cases hp : pyCell L W 0 py with
    | none => rw [hp] at h; cases h
    | some c =>
      rw [hp] at h
      simp only at h
      generalize hx : sedLoop g k P P.stepmax (enterState k P st c) 0 py P.VpSed s = x at h
      cases x with
      | error e => cases h
      | ok v =>
        obtain ⟨st2, res, rs, s1⟩ := v
        simp only at h
        generalize hy : sedParcels g k P pys st2 s1 = y at h
        cases y with
        | error e => cases h
        | ok v =>
          obtain ⟨st3, logs', s2⟩ := v
          simp only [Except.ok.injEq, Prod.mk.injEq] at h
          obtain ⟨-, rfl, -⟩ := h
          obtain ⟨r, rs', rfl, hr⟩ := sedLoop_enters hx
          have e : entering (⟨c.2, r :: rs', res⟩ : SedLog L W K) = P.VpSed := hr
          simp only [List.map_cons, List.sum_cons, e, ih hy, List.length_cons]
          push_cast
          ring

lemma routeParcels_enters {g : Rng K σ} (hg : ∀ s, 0 ≤ (g.next s).1 ∧ (g.next s).1 ≤ 1) {k : Sed} {P : Params L W m K}
    (hm : 0 < m) {S S' : State L W K} {s s' : σ} {logs : List (SedLog L W K)}
    (h : routeParcels g k P S s = .ok (S', logs, s')) : (logs.map entering).sum = numStarts k P * P.VpSed := by
  rw [← C24_parcel_count hg hm h]
  unfold routeParcels at h
  simp only at h
  split at h
  · cases h
  · split at h
    · cases h
    · rename_i hp
      simp only [Except.ok.injEq, Prod.mk.injEq] at h
      obtain ⟨-, rfl, -⟩ := h
      exact sedParcels_enters hp

/-- C126: in a run of `n` timesteps enters the volume of as many parcels of a kind as are configured for a timestep,
`n` times. -/
theorem C126_entered {g : Rng K σ} (hg : ∀ s, 0 ≤ (g.next s).1 ∧ (g.next s).1 ≤ 1) {P : Params L W m K} (hm : 0 < m) :
    ∀ (n : ℕ) {S S' : State L W K} {s s' : σ} {ls : List (StepLog L W K)},
    timesteps g (List.replicate n P) S s = .ok (S', ls, s') →
    enteredSand ls = n * (numStarts .sand P * P.VpSed) ∧ enteredMud ls = n * (numStarts .mud P * P.VpSed) ∧
      S'.time = S.time + n * P.dt := by
  intro n
  induction n with
  | zero =>
    intro S S' s s' ls h
    simp only [List.replicate_zero, timesteps, Except.ok.injEq, Prod.mk.injEq] at h
    obtain ⟨rfl, rfl, -⟩ := h
    simp [enteredSand, enteredMud]
  | succ n ih =>
    intro S S' s s' ls h
    rw [List.replicate_succ] at h
    obtain ⟨S1, l, s1, ls', h1, h2, rfl⟩ := timesteps_cons h
    obtain ⟨a1, a2, a3⟩ := ih h2
    obtain ⟨t1, -, h3, -, -⟩ := timestep_ok h1
    obtain ⟨T, t2, b1, b2⟩ := routeSediment_ok h3
    have c1 := routeParcels_enters hg hm b1
    have c2 := routeParcels_enters hg hm b2
    have d := timestep_time h1
    simp only [enteredSand, enteredMud, List.map_cons, List.sum_cons] at a1 a2 ⊢
    rw [c1, c2, a1, a2, a3, d]
    push_cast
    exact ⟨by ring, by ring, by ring⟩

end

/-! ## Created models -/

/-- The quantities of a created model that make up the supply. -/
lemma created_supply {O : Oracle K} {I : Input K} {M : Built K} (h : create O I = .ok M) (hW : 3 ≤ M.W) :
    Accepted I ∧ I.u0 ≠ 0 ∧ I.h0 ≠ 0 ∧ I.C0pct ≠ 0 ∧ I.dx ≠ 0 ∧ 3 ≤ M.m ∧ 0 < I.NpSed ∧ (M.P.NpSed : K) = I.NpSed ∧
      M.P.fBedload = I.fBedload ∧ M.P.VpSed = 1 / 10 * ((M.m : K) * M.m) * (I.h0 * (I.dx * I.dx)) / I.NpSed ∧
      M.P.dt = 10 * (M.m * I.dx) / (I.u0 * I.C0pct) ∧
      M.P.diffMult = M.P.dt / (M.P.Ncross : K) * I.alpha * (1 / 2) / (I.dx * I.dx) ∧ M.P.toggleSub = I.toggleSub ∧
      M.P.dx = I.dx ∧ M.S.time = 0 := by
  obtain ⟨a, -, -, -, -, hm3, -, -, hq⟩ := C51_inlet_partial h hW
  obtain ⟨hA, D, hD, hs, e⟩ := create_ok h
  have b := bc_ok hD
  have hu := b.u0
  have hdx : I.dx ≠ 0 := hA.dx.ne'
  have hh : I.h0 ≠ 0 := by
    intro h0
    apply b.V
    rw [b.eV0, h0, zero_mul]
  have hC : I.C0pct ≠ 0 := by
    intro h0
    apply b.Qs
    rw [b.eQs0, b.eC0, h0]
    ring
  have hNw : (0 : ℤ) < I.NpWater := hA.NpWater
  have hNs : (0 : ℤ) < I.NpSed := hA.NpSed
  have hcast : ∀ z : ℤ, 0 < z → (((z.toNat : ℕ)) : K) = (z : K) := by
    intro z hz
    rw [← Int.cast_natCast, Int.toNat_of_nonneg hz.le]
  have hNwK : (I.NpWater : K) ≠ 0 := by exact_mod_cast hNw.ne'
  have hN : (D.N0 : K) = (M.m : K) := by
    have e1 : M.P.NpWater = I.NpWater.toNat := by subst e; rfl
    have e2 : M.P.QpWater = D.QpWater := by subst e; rfl
    rw [e1, hcast _ hNw, e2, b.eQp, b.eQw0] at hq
    field_simp at hq
    exact hq
  have hmK : (M.m : K) ≠ 0 := by
    have : M.m ≠ 0 := by omega
    exact_mod_cast this
  have eN : M.P.NpSed = I.NpSed.toNat := by subst e; rfl
  have eV : M.P.VpSed = D.VpSed := by subst e; rfl
  have edt : M.P.dt = D.dt := by subst e; rfl
  have ed : M.P.diffMult = D.diffMult := by subst e; rfl
  have ec : M.P.Ncross = D.Ncross.toNat := by subst e; rfl
  have hNc : 0 < D.Ncross := by
    have i3 := (C50_inlet_size hD).2.2.1
    have : (1 : ℤ) ≤ roundHalfEven (1 / 10 * ((D.N0 : K) * (D.N0 : K))) := ncross_pos i3
    have e3 : D.dVs / D.V0 = 1 / 10 * ((D.N0 : K) * (D.N0 : K)) := by
      rw [b.edVs]
      exact mul_div_cancel_right₀ _ b.V
    rw [b.eNcross, e3]
    omega
  refine ⟨hA, hu, hh, hC, hdx, hm3, hNs, by rw [eN, hcast _ hNs], by subst e; rfl, ?_, ?_, ?_, by subst e; rfl,
    by subst e; rfl, by subst e; rfl⟩
  · rw [eV, b.eVp, b.edVs, b.eV0, hN]
  · rw [edt, b.edt, b.edVs, b.eQs0, b.eQw0, b.eV0, b.eC0, hN]
    field_simp
    ring
  · rw [ed, b.ediff, ec, hcast _ hNc, edt]

/-- C126: the time step is ten times the width of the inlet over velocity and concentration in percent: it depends
neither on the depth nor on the numbers of parcels. In it enters a tenth of the volume of the water over a square of
the width of the inlet. -/
theorem C126_step {O : Oracle K} {I : Input K} {M : Built K} (h : create O I = .ok M) (hW : 3 ≤ M.W) :
    M.P.dt = 10 * (M.m * I.dx) / (I.u0 * I.C0pct) ∧
      (M.P.NpSed : K) * M.P.VpSed = 1 / 10 * ((M.m * I.dx) ^ 2 * I.h0) ∧
      (M.P.NpSed : K) * M.P.VpSed = sedimentDischarge I M.m * M.P.dt := by
  obtain ⟨hA, hu, hh, hC, hdx, hm, hN, eN, ef, eV, edt, -⟩ := created_supply h hW
  have hNK : (I.NpSed : K) ≠ 0 := by exact_mod_cast hN.ne'
  refine ⟨edt, ?_, ?_⟩
  · rw [eN, eV]
    field_simp
  · rw [eN, eV, edt, sedimentDischarge]
    field_simp
    norm_num

/-- Numbers of parcels turned into volumes. -/
lemma supply_bounds {N f A B w : K} (hs : N * f - 1 < A ∧ A ≤ N * f) (hm : N * (1 - f) - 1 < B ∧ B ≤ N * (1 - f))
    (hsum : N - 1 ≤ A + B) (hw : 0 ≤ w) :
    (f * (N * w) - w ≤ A * w ∧ A * w ≤ f * (N * w)) ∧
      ((1 - f) * (N * w) - w ≤ B * w ∧ B * w ≤ (1 - f) * (N * w)) ∧
      (N * w - w ≤ A * w + B * w ∧ A * w + B * w ≤ N * w) := by
  have a := mul_le_mul_of_nonneg_right hs.1.le hw
  have b := mul_le_mul_of_nonneg_right hs.2 hw
  have c := mul_le_mul_of_nonneg_right hm.1.le hw
  have d := mul_le_mul_of_nonneg_right hm.2 hw
  have e := mul_le_mul_of_nonneg_right hsum hw
  refine ⟨⟨?_, ?_⟩, ⟨?_, ?_⟩, ⟨?_, ?_⟩⟩ <;> linarith

/-- C126: over a run of any length from creation the inlet supplies the sediment discharge times the time, of it the
share `f_bedload` as sand, each up to less than one parcel per timestep, never more; exactly if the share is a whole
number of parcels. -/
theorem C126_supply {O : Oracle K} {I : Input K} {M : Built K} (h : create O I = .ok M) (hW : 3 ≤ M.W) (hh : 0 < I.h0)
    [NeZero M.L] [NeZero M.W] {g : Rng K σ} (hg : ∀ s, 0 ≤ (g.next s).1 ∧ (g.next s).1 ≤ 1) {n : ℕ}
    {S' : State M.L M.W K} {ls : List (StepLog M.L M.W K)} {s s' : σ}
    (hr : timesteps g (List.replicate n M.P) M.S s = .ok (S', ls, s')) :
    let V := sedimentDischarge I M.m * S'.time
    S'.time = n * M.P.dt ∧ 0 ≤ V ∧
      (I.fBedload * V - V / I.NpSed ≤ enteredSand ls ∧ enteredSand ls ≤ I.fBedload * V) ∧
      ((1 - I.fBedload) * V - V / I.NpSed ≤ enteredMud ls ∧ enteredMud ls ≤ (1 - I.fBedload) * V) ∧
      (V - V / I.NpSed ≤ enteredSand ls + enteredMud ls ∧ enteredSand ls + enteredMud ls ≤ V) ∧
      ((∃ k : ℕ, (I.NpSed : K) * I.fBedload = k) →
        enteredSand ls = I.fBedload * V ∧ enteredMud ls = (1 - I.fBedload) * V) := by
  obtain ⟨hA, hu, -, hC, hdx, hm, hN, eN, ef, eV, edt, -, -, -, et⟩ := created_supply h hW
  obtain ⟨-, hv, hq⟩ := C126_step h hW
  obtain ⟨a1, a2, a3⟩ := C126_entered hg (by omega) n hr
  have hNK : (0 : K) < I.NpSed := by exact_mod_cast hN
  have hT : S'.time = n * M.P.dt := by rw [a3, et, zero_add]
  have hV : sedimentDischarge I M.m * S'.time = n * ((I.NpSed : K) * M.P.VpSed) := by
    rw [hT, ← eN, hq]
    ring
  have hVp : 0 < M.P.VpSed := by
    have hmK : (0 : K) < M.m := by
      have : 0 < M.m := by omega
      exact_mod_cast this
    rw [eV]
    have := hA.dx
    positivity
  have hn : (0 : K) ≤ n := Nat.cast_nonneg n
  have f0 : 0 ≤ I.fBedload := hA.f0
  have f1 : I.fBedload ≤ 1 := hA.f1
  have hc := C28_counts (P := M.P) (by rw [ef]; exact f0) (by rw [ef]; exact f1)
  rw [ef] at hc
  have hfl : ∀ x : K, 0 ≤ x → x - 1 < (((truncInt x).toNat : ℕ) : K) ∧ (((truncInt x).toNat : ℕ) : K) ≤ x := by
    intro x hx
    have e1 : truncInt x = ⌊x⌋ := if_pos hx
    have e2 : (((⌊x⌋.toNat : ℕ)) : K) = (⌊x⌋ : K) := by
      rw [← Int.cast_natCast, Int.toNat_of_nonneg (Int.floor_nonneg.2 hx)]
    rw [e1, e2]
    exact ⟨Int.sub_one_lt_floor x, Int.floor_le x⟩
  have hs := hfl ((I.NpSed : K) * I.fBedload) (mul_nonneg hNK.le f0)
  have hmd := hfl ((I.NpSed : K) * (1 - I.fBedload)) (mul_nonneg hNK.le (by linarith))
  have es : numStarts .sand M.P = (truncInt ((I.NpSed : K) * I.fBedload)).toNat := by
    show (truncInt ((M.P.NpSed : K) * M.P.fBedload)).toNat = _
    rw [eN, ef]
  have em : numStarts .mud M.P = (truncInt ((I.NpSed : K) * (1 - I.fBedload))).toNat := by
    show (truncInt ((M.P.NpSed : K) * (1 - M.P.fBedload))).toNat = _
    rw [eN, ef]
  rw [← es] at hs
  rw [← em] at hmd
  have hw : (0 : K) ≤ n * M.P.VpSed := mul_nonneg hn hVp.le
  have hdiv : sedimentDischarge I M.m * S'.time / I.NpSed = n * M.P.VpSed := by
    rw [hV]
    field_simp
  have hsum : (I.NpSed : K) - 1 ≤ (numStarts .sand M.P : K) + numStarts .mud M.P := by
    by_cases hk : ∃ k : ℕ, (I.NpSed : K) * I.fBedload = k
    · have e : (numStarts .sand M.P : K) + numStarts .mud M.P = (M.P.NpSed : K) := by exact_mod_cast hc.1 (by rw [eN]; exact hk)
      rw [e, eN]
      linarith
    · have e : (numStarts .sand M.P : K) + numStarts .mud M.P + 1 = (M.P.NpSed : K) := by exact_mod_cast hc.2 (by rw [eN]; exact hk)
      rw [eN] at e
      linarith
  have hV' : sedimentDischarge I M.m * S'.time = (I.NpSed : K) * (n * M.P.VpSed) := by rw [hV]; ring
  have a1' : enteredSand ls = numStarts .sand M.P * (n * M.P.VpSed) := by rw [a1]; ring
  have a2' : enteredMud ls = numStarts .mud M.P * (n * M.P.VpSed) := by rw [a2]; ring
  obtain ⟨b1, b2, b3⟩ := supply_bounds hs hmd hsum hw
  show S'.time = n * M.P.dt ∧ 0 ≤ sedimentDischarge I M.m * S'.time ∧ _
  rw [hdiv, a1', a2', hV']
  refine ⟨hT, mul_nonneg hNK.le hw, b1, b2, b3, fun hk => ?_⟩
  have e1 : (numStarts .sand M.P : K) + numStarts .mud M.P = (I.NpSed : K) := by
    rw [← eN]
    exact_mod_cast hc.1 (by rw [eN]; exact hk)
  obtain ⟨k, hk⟩ := hk
  have e2 : (numStarts .sand M.P : K) = (I.NpSed : K) * I.fBedload := by
    have : truncInt (k : K) = (k : ℤ) := by
      unfold truncInt
      rw [if_pos (Nat.cast_nonneg k), Int.floor_natCast]
    rw [es, hk, this]
    simp
  have e3 : (numStarts .mud M.P : K) = (I.NpSed : K) * (1 - I.fBedload) := by linarith
  rw [e2, e3]
  exact ⟨by ring, by ring⟩

/-- C126: without diffusion and subsidence the bed outside of the inlet grows by the sediment discharge times the
time, less what the parcels carried out of the basin and left in the inlet. -/
theorem C126_growth {O : Oracle K} {I : Input K} {M : Built K} (h : create O I = .ok M) (hW : 3 ≤ M.W)
    [NeZero M.L] [NeZero M.W] {g : Rng K σ} (hg : ∀ s, 0 ≤ (g.next s).1 ∧ (g.next s).1 ≤ 1)
    (hw : ∃ k : ℕ, (I.NpSed : K) * I.fBedload = k) (ha : I.alpha = 0) (hsub : I.toggleSub = false) {n : ℕ}
    {S' : State M.L M.W K} {ls : List (StepLog M.L M.W K)} {s s' : σ}
    (hr : timesteps g (List.replicate n M.P) M.S s = .ok (S', ls, s')) :
    outsideVolume I.dx M.P.inlet S' = outsideVolume I.dx M.P.inlet M.S + sedimentDischarge I M.m * S'.time
      - (ls.map fun l => carriedOut (l.sand ++ l.mud) + movedToInlet M.P.inlet (l.sand ++ l.mud)).sum := by
  obtain ⟨hA, hu, -, hC, hdx, hm, hN, eN, ef, eV, edt, ed, eS, ex, et⟩ := created_supply h hW
  obtain ⟨-, hv, hq⟩ := C126_step h hW
  have a3 := (C126_entered hg (by omega) n hr).2.2
  have := C83_plain hg (P := M.P) (by omega) (by rw [ex]; exact hdx) (by rw [ef]; exact hA.f0) (by rw [ef]; exact hA.f1)
    (by rw [eN, ef]; exact hw) (by rw [ed, ha]; ring) (by rw [eS]; exact hsub) n hr
  rw [ex] at this
  rw [this, hq, a3, et]
  ring

/-- C126: the documentation gives the time step as the volume of a timestep over the number of parcels. This is the
volume of a parcel. It is the time step only if the number of parcels is the sediment discharge. -/
theorem C126_documented_step {O : Oracle K} {I : Input K} {M : Built K} (h : create O I = .ok M) (hW : 3 ≤ M.W) :
    M.P.dt = 1 / 10 * ((M.m : K) ^ 2 * (I.h0 * I.dx ^ 2)) / I.NpSed ↔ (I.NpSed : K) = sedimentDischarge I M.m := by
  obtain ⟨hA, hu, hh, hC, hdx, hm, hN, eN, ef, eV, edt, -⟩ := created_supply h hW
  have hNK : (I.NpSed : K) ≠ 0 := by exact_mod_cast hN.ne'
  have hmK : (M.m : K) ≠ 0 := by
    have : M.m ≠ 0 := by omega
    exact_mod_cast this
  rw [edt, sedimentDischarge]
  constructor
  · intro e
    field_simp at e
    have : (I.NpSed : K) * 100 = I.u0 * I.h0 * (M.m * I.dx) * I.C0pct := by linarith
    linarith
  · intro e
    rw [e]
    field_simp
    norm_num

/-! ## Non-trivial case: the default configuration -/

/-- The default configuration: 25000 seconds, a sediment discharge of 1.25 cubic meters per second, half of it sand, in
runs of any length. The documented time step would be 15.625. -/
theorem C126_default {g : Rng ℚ σ} (hg : PositiveDraws g) :
    ∃ M, create exOracle exInput = .ok M ∧ M.P.dt = 25000 ∧ sedimentDischarge exInput M.m = 5 / 4 ∧
      M.P.dt ≠ 1 / 10 * ((M.m : ℚ) ^ 2 * (exInput.h0 * exInput.dx ^ 2)) / exInput.NpSed ∧
      ∃ (_ : NeZero M.L) (_ : NeZero M.W), ∀ (n : ℕ) (s : σ), ∃ S' ls s',
        timesteps g (List.replicate n M.P) M.S s = .ok (S', ls, s') ∧ enteredSand ls = n * 15625 ∧
          enteredMud ls = n * 15625 := by
  obtain ⟨L, W, m, iL, iW, P, S, h, -, hrun⟩ := C74_run exOracleOk exRunnable hg
  obtain ⟨s1, s2, s3, s4⟩ := create_size h
  have e2 : cellsAlong exInput.Width exInput.dx = 200 := by decide +kernel
  rw [e2] at s4
  simp only at s3 s4
  have hW3 : 3 ≤ (⟨L, W, m, P, S⟩ : Built ℚ).W := by simp only; omega
  obtain ⟨a, -, -, -, -, -, -, hm, -⟩ := C51_inlet_partial h hW3
  have e3 : roundHalfEven (exInput.N0m / exInput.dx) = 5 := by decide +kernel
  rw [e3] at hm
  have hm5 : m = 5 := by
    have := hm (by norm_num) (by simp only; omega)
    simp only at this
    omega
  subst hm5
  have hst := C126_step h hW3
  have hdt : P.dt = 25000 := by
    have := hst.1
    simp only at this
    rw [this]
    norm_num [exInput]
  have hQ : sedimentDischarge exInput 5 = 5 / 4 := by norm_num [sedimentDischarge, exInput]
  refine ⟨_, h, hdt, hQ, ?_, iL, iW, fun n s => ?_⟩
  · rw [Ne, C126_documented_step h hW3]
    simp only [hQ]
    norm_num [exInput]
  · obtain ⟨S', ls, s', hr, ht, -⟩ := hrun n s
    have := (C126_supply h hW3 (by norm_num [exInput]) (fun s => ⟨(hg s).1.le, (hg s).2⟩) hr).2.2.2.2.2
      ⟨1000, by norm_num [exInput]⟩
    simp only at this
    rw [hQ, ht, hdt] at this
    refine ⟨S', ls, s', hr, ?_, ?_⟩
    · rw [this.1]
      norm_num [exInput]
      ring
    · rw [this.2]
      norm_num [exInput]
      ring

end Verif.Props
