import Verif.Props.Domain
import Verif.Props.Run
import Verif.Props.Output
import Verif.Model.Branch

/-!
# C53 and C74: the initial state, and configurations that can be run
-/

set_option linter.unusedSectionVars false
set_option linter.unusedSimpArgs false

namespace Verif.Props

open Verif.Model Verif.Lemmas Verif.Spec

variable {K : Type*} [Field K] [LinearOrder K] [IsStrictOrderedRing K] [FloorRing K] {σ : Type*}

/-! ## C53 -/

/-- The cell types when the fields are initialised, in closed form. -/
lemma cellType0_eq (L W : ℕ) (CTR L0 N0 : ℤ) (c : Cell L W) :
    cellType0 L W CTR L0 N0 c =
      if channelCells L W CTR L0 N0 c then 1 else if landRows L W L0 c then -2 else 0 := by
  unfold cellType0 assign
  by_cases h1 : channelCells L W CTR L0 N0 c = true <;>
    by_cases h2 : landRows L W L0 c = true <;> simp [h1, h2]

/-- C53: the initial fields of every cell: bed, stage, depth and discharge by type, velocity times
depth is the discharge where there is water, and still water on dry ground. Stage is zero beyond the
inlet rows; there, `hb` or `h0` of water.
Partial: C53 puts the ocean surface at the sea level, see `C53_sea_level`. -/
theorem C53_initial_partial {O : Oracle K} {I : Input K} {M : Built K} (h : create O I = .ok M)
    (c : Cell M.L M.W) :
    M.S.eta c = M.S.stage c - M.S.depth c ∧
    (M.P.cellType c = 1 → M.S.depth c = I.h0 ∧ M.S.qx c = I.u0 * I.h0) ∧
    (M.P.cellType c = -2 → M.S.depth c = 0 ∧ M.S.qx c = 0) ∧
    (M.P.L0 ≤ c.1.val → M.S.stage c = 0 ∧ M.S.qx c = I.u0 * I.h0 / 5 ∧
      (I.hb = none → M.S.depth c = I.h0) ∧ ∀ b, I.hb = some b → b ≠ 0 → M.S.depth c = b) ∧
    ((c.1.val : ℤ) < M.P.L0 →
      M.S.stage c = ((M.P.L0 - 1 - c.1.val : ℤ) : K) * I.dx * I.S0) ∧
    M.S.qy c = 0 ∧ M.S.qw c = O.nrm (M.S.qx c) 0 ∧
    (0 < M.S.depth c → M.S.ux c * M.S.depth c = M.S.qx c ∧ M.S.uy c * M.S.depth c = M.S.qy c ∧
      M.S.uw c * M.S.depth c = M.S.qw c) ∧
    (M.S.depth c ≤ 0 → M.S.ux c = 0 ∧ M.S.uy c = 0 ∧ M.S.uw c = 0) ∧
    (0 ≤ I.h0 → (∀ b, I.hb = some b → 0 ≤ b) → 0 ≤ M.S.depth c) := by
  obtain ⟨hA, D, hD, hs, e⟩ := create_ok h
  have b := bc_ok hD
  have i1 := (C50_inlet_size hD).1
  have hhb : 0 ≤ I.h0 → (∀ b, I.hb = some b → 0 ≤ b) → 0 ≤ resolveHb I := by
    intro h1 h2
    unfold resolveHb
    cases hb : I.hb with
    | none => exact h1
    | some x =>
      simp only
      split_ifs
      · exact h1
      · exact h2 x hb
  subst e
  simp only at c
  have hl := landRows_iff (by omega : 0 ≤ D.L0) c
  have hcl : channelCells _ _ (centre (cellsAlong I.Width I.dx)) D.L0 D.N0 c = true →
      landRows _ _ D.L0 c = true := by
    unfold channelCells
    rw [Bool.and_eq_true]
    exact fun h => h.1
  have hfinal := cellTypes_eq _ _ (centre (cellsAlong I.Width I.dx)) D.L0 D.N0 c
  have hinit := cellType0_eq _ _ (centre (cellsAlong I.Width I.dx)) D.L0 D.N0 c
  simp only [initialParams, initialState, assign, decide_eq_true_eq, Bool.decide_eq_true]
  have hstage : (c.1.val : ℤ) < D.L0 → ((max 0 (D.L0 - c.1.val - 1) : ℤ) : K) * I.dx * I.S0 =
      ((D.L0 - 1 - c.1.val : ℤ) : K) * I.dx * I.S0 := by
    intro hr
    rw [max_eq_right (by omega)]
    congr 3
    ring
  by_cases h1 : channelCells _ _ (centre (cellsAlong I.Width I.dx)) D.L0 D.N0 c = true
  · rw [if_pos h1] at hfinal hinit
    have hr := hl.1 (hcl h1)
    simp only [hfinal, hinit, one_ne_zero, if_false, if_true, forall_const, b.eqw0]
    refine ⟨trivial, ⟨trivial, trivial⟩, by norm_num, by omega, fun hr => hstage hr, trivial, trivial,
      ?_, ?_, fun h _ => h⟩
    · intro hd
      simp only [hd, if_true]
      exact ⟨div_mul_cancel₀ _ hd.ne', div_mul_cancel₀ _ hd.ne', div_mul_cancel₀ _ hd.ne'⟩
    · intro hd
      simp [not_lt.2 hd]
  · rw [if_neg h1] at hfinal hinit
    by_cases h2 : landRows _ _ D.L0 c = true
    · rw [if_pos h2] at hfinal hinit
      have hr := hl.1 h2
      simp only [hfinal, hinit]
      norm_num
      refine ⟨fun h => absurd hr (by omega), fun hr => ?_⟩
      have h0 : (0 : K) ≤ (D.L0 : K) - c.1.val - 1 := by
        have : (0 : ℤ) ≤ D.L0 - c.1.val - 1 := by omega
        exact_mod_cast this
      left; left
      rw [max_eq_right h0]
      ring
    · rw [if_neg h2] at hfinal hinit
      have hr : D.L0 ≤ c.1.val := by rw [hl] at h2; omega
      have h3 : cellTypes (cellsAlong I.Length I.dx).toNat (cellsAlong I.Width I.dx).toNat
        (centre (cellsAlong I.Width I.dx)) D.L0 D.N0 c ≠ 1 := by rw [hfinal]; split_ifs <;> norm_num
      have h4 : cellTypes (cellsAlong I.Length I.dx).toNat (cellsAlong I.Width I.dx).toNat
        (centre (cellsAlong I.Width I.dx)) D.L0 D.N0 c ≠ -2 := by rw [hfinal]; split_ifs <;> norm_num
      simp only [hinit, h3, h4, zero_ne_one, if_false, if_true, b.eqw0, forall_const]
      refine ⟨trivial, fun h => absurd h id, fun h => absurd h id, ?_, fun h => absurd h (by omega),
        trivial, trivial, ?_, ?_, hhb⟩
      · intro _
        exact ⟨trivial, trivial, (resolveHb_cases I).1, (resolveHb_cases I).2⟩
      · intro hd
        simp only [hd, if_true]
        exact ⟨div_mul_cancel₀ _ hd.ne', div_mul_cancel₀ _ hd.ne', div_mul_cancel₀ _ hd.ne'⟩
      · intro hd
        simp [not_lt.2 hd]

/-- C53 fails: the initial water surface of the ocean is at zero also if the sea level is not. -/
theorem C53_sea_level {O : Oracle K} {I : Input K} {M : Built K} (h : create O I = .ok M)
    (hsea : I.HSL ≠ 0) (c : Cell M.L M.W) (hc : M.P.cellType c = 0) :
    M.S.stage c = 0 ∧ M.S.HSL = I.HSL ∧ M.S.stage c ≠ M.S.HSL := by
  have h1 := (C53_initial_partial h c).2.2.2.1
  have h2 := (C52_types h c).2.1
  have h3 : M.P.L0 ≤ c.1.val := by
    by_contra hlt
    have := h2.2 (by omega)
    omega
  have h4 := (h1 h3).1
  have h5 : M.S.HSL = I.HSL := by
    obtain ⟨-, D, -, -, e⟩ := create_ok h
    subst e
    rfl
  exact ⟨h4, h5, by rw [h4, h5]; exact hsea.symm⟩

/-! ## C55: unset options in a created model and in its run -/

/-- C55: the initial depth of the basin is `h0` with an unset basin depth, and a set one other than zero is used.
Partial: C55 claims this of every set value, see `C55_hb_zero`. -/
theorem C55_hb_partial {O : Oracle K} {I : Input K} {M : Built K} (h : create O I = .ok M) (c : Cell M.L M.W)
    (hc : M.P.L0 ≤ c.1.val) :
    (I.hb = none → M.S.depth c = I.h0 ∧ M.S.eta c = -I.h0) ∧
    ∀ b, I.hb = some b → b ≠ 0 → M.S.depth c = b ∧ M.S.eta c = -b := by
  obtain ⟨h1, -, -, h2, -⟩ := C53_initial_partial h c
  obtain ⟨h3, -, h4, h5⟩ := h2 hc
  refine ⟨fun hb => ⟨h4 hb, ?_⟩, fun b hb h0 => ⟨h5 b hb h0, ?_⟩⟩
  · rw [h1, h3, h4 hb, zero_sub]
  · rw [h1, h3, h5 b hb h0, zero_sub]

/-- C55 fails: with a basin depth set to zero the basin has `h0` of water. -/
theorem C55_hb_zero {O : Oracle K} {I : Input K} {M : Built K} (h : create O I = .ok M) (hb : I.hb = some 0)
    (c : Cell M.L M.W) (hc : M.P.L0 ≤ c.1.val) : M.S.depth c = I.h0 := by
  have h' : create O { I with hb := none } = .ok M := by
    have e : resolveHb { I with hb := none } = resolveHb I := by rw [resolveHb_zero I hb]; rfl
    have e2 : ∀ L W CTR D, initialState L W CTR O { I with hb := none } D = initialState L W CTR O I D := by
      intro L W CTR D
      unfold initialState
      simp only [e]
    have e3 : ∀ L W, boundaryConditions { I with hb := none } L W = boundaryConditions I L W := fun _ _ => rfl
    have e4 : validate { I with hb := none } = validate I := rfl
    rw [← h]
    unfold create
    simp only [e2, e3, e4]
    rfl
  exact ((C55_hb_partial h' c hc).1 rfl).1

/-- C55: in a run with checkpoints and an unset checkpoint interval, the checkpoints are written in the very updates after
which the fields are saved; a set interval is the one of the checkpoints. -/
theorem C55_checkpoint {L W m : ℕ} [NeZero L] [NeZero W] {I : Input K} {nc seq : Bool} {figs : List (List Char)} {g : Rng K σ}
    {Ps : List (Params L W m K)} {S : State L W K} {s : σ} {M : Sim L W K σ}
    (h : updates g (outCfgOf I true nc figs seq) Ps (startSim (outCfgOf I true nc figs seq) S s) = .ok M) :
    (I.ckptDt = none → ∃ is, OnSchedule (I.saveDt : K) (clock S.time (Ps.map (·.dt))) Ps.length is ∧
      List.Forall₂ (fun k r => Snapshot g Ps S s k r.2) is M.saves ∧
      List.Forall₂ (CkptAfter g (outCfgOf I true nc figs seq) Ps S s) is M.ckpts) ∧
    ∀ t, I.ckptDt = some t → ∃ js, OnSchedule (t : K) (clock S.time (Ps.map (·.dt))) Ps.length js ∧
      List.Forall₂ (CkptAfter g (outCfgOf I true nc figs seq) Ps S s) js M.ckpts := by
  obtain ⟨js, -, h1, h2, -⟩ := (C42_schedule h).1 rfl
  obtain ⟨is, h3, h4⟩ := C39_schedule h
  constructor
  · intro hc
    have e : (outCfgOf I true nc figs seq).ckptDt = (I.saveDt : K) := by simp [outCfgOf, resolveCkptDt, hc]
    rw [e] at h1
    refine ⟨js, h1, ?_, h2⟩
    rw [h1.unique h3]
    exact h4.imp fun _ _ h => h.1
  · intro t hc
    have e : (outCfgOf I true nc figs seq).ckptDt = (t : K) := by simp [outCfgOf, resolveCkptDt, hc]
    rw [e] at h1
    exact ⟨js, h1, h2⟩

/-! ## C74: configurations that can be run -/

/-- What is used of square roots and powers. -/
structure OracleOk (O : Oracle K) : Prop where
  s2 : 0 < O.s2
  s05 : 0 < O.s05
  nrm : ∀ x y, 0 ≤ O.nrm x y
  nrmZero : ∀ x y, O.nrm x y = 0 → x = 0 ∧ y = 0
  nrmAxis : ∀ x, 0 ≤ x → O.nrm x 0 = x
  powNonneg : ∀ x e, 0 ≤ e → 0 ≤ x → 0 ≤ O.pow x e
  powPos : ∀ x e, 0 ≤ e → 0 < x → 0 < O.pow x e
  powMono : ∀ x y e, 0 ≤ e → 0 ≤ x → x ≤ y → O.pow x e ≤ O.pow y e

/-- The configurations for which everything is proved: accepted by validation, water and sediment flow
in, the basin is not above its water surface, the domain is at least 8 × 5 cells with an inlet of at
least two rows, a slope that is not too steep, and coefficients in their ranges. -/
structure Runnable (I : Input K) : Prop where
  accepted : Accepted I
  flowing : Flowing I
  hb : ∀ b, I.hb = some b → 0 ≤ b
  rows : 2 ≤ roundHalfEven (I.L0m / I.dx)
  L : 8 ≤ cellsAlong I.Length I.dx
  W : 5 ≤ cellsAlong I.Width I.dx
  slope0 : 0 ≤ I.S0
  slope1 : 981 / 100 * I.S0 * I.dx ≤ I.u0 * I.u0
  steps : ∀ x, I.stepmax = some x → 4 ≤ x
  lag0 : 0 ≤ I.sedLag
  lag1 : I.sedLag ≤ 1
  eroSand : 0 < I.coeffUeroSand
  eroMud : 0 < I.coeffUeroMud
  depMud : 0 < I.coeffUdepMud
  theta : 0 ≤ I.thetaWater
  thetaSand : 0 ≤ I.coeffThetaSand
  thetaMud : 0 ≤ I.coeffThetaMud
  beta : 0 ≤ I.beta
  sand0 : 0 ≤ I.sandFracBc
  sand1 : I.sandFracBc ≤ 1

lemma trunc_ge {x : K} {n : ℤ} (h0 : 0 ≤ n) (h : (n : K) ≤ x) : n ≤ truncInt x := by
  have : (0 : K) ≤ n := by exact_mod_cast h0
  unfold truncInt
  rw [if_pos (by linarith)]
  exact Int.le_floor.2 h

/-- C74: the model is created, and is laid out as all theorems about runs ask for. -/
theorem C74_created {O : Oracle K} (hO : OracleOk O) {I : Input K} (hI : Runnable I) :
    ∃ (L W m : ℕ) (_ : NeZero L) (_ : NeZero W) (P : Params L W m K) (S : State L W K),
      create O I = .ok ⟨L, W, m, P, S⟩ ∧ WaterSetup P ∧ SedDomain P ∧ SedPositive P ∧ RunSetup P ∧
      (∀ c, 0 ≤ S.depth c) ∧ 0 < S.ncols ∧ (∀ c, P.cellType c = -2 → P.sigma c = 0) := by
  have hA := hI.accepted
  have hF := hI.flowing
  obtain ⟨D, hD, p1, p2, p3, p4, p5, p6, p7, -, -⟩ := C50_derived_partial hA hF
    (cellsAlong I.Length I.dx) (cellsAlong I.Width I.dx)
  have b := bc_ok hD
  have hstep : 4 ≤ D.stepmax := by
    cases hs : I.stepmax with
    | none => rw [b.estepNone hs]; have := hI.L; have := hI.W; omega
    | some x =>
      rw [b.estepSome x hs]
      exact trunc_ge (by norm_num) (by exact_mod_cast hI.steps x hs)
  have hsize : 2 ≤ D.sizeInd := by rw [b.esize, Int.tdiv_eq_ediv_of_nonneg (by omega)]; omega
  have hex : ∃ M, create O I = .ok M := by
    unfold create
    rw [(C50_validate I).2 hA]
    simp only [hD]
    rw [if_neg (by omega)]
    exact ⟨_, rfl⟩
  obtain ⟨M, hM⟩ := hex
  obtain ⟨s1, s2, s3, s4⟩ := create_size hM
  have hL8 := hI.L
  have hW5 := hI.W
  obtain ⟨N0, l1, l2, l3, l4, l5⟩ := create_layout hM (by omega)
  have hinlet := C51_inlet_partial hM (by omega)
  have hclosed := fun c => C52_closed_partial hM (by omega) (by omega) c
  have htypes := fun c => C52_types hM c
  have hinit := fun c => C53_initial_partial hM c
  have hcases := fun c => cellTypes_cases (L := M.L) (c := c) l1 (by omega) l3 l4
  rw [← l5] at hcases
  obtain ⟨-, D', hD', -, e⟩ := create_ok hM
  rw [hD] at hD'
  cases hD'
  have f1 : M.P.L0 = D.L0 := by subst e; rfl
  have hL0 : 2 ≤ M.P.L0 := by
    rw [f1, b.eL0]
    have := hI.rows
    omega
  have hL02 : M.P.L0 + 2 ≤ M.L := by omega
  have f2 : M.P.modWater = (fun _ => 1) ∧ M.P.modSed = (fun _ => 1) ∧ M.P.modErosion = fun _ => 1 := by
    subst e; exact ⟨rfl, rfl, rfl⟩
  have f3 : M.P.nrm = O.nrm ∧ M.P.s2 = O.s2 ∧ M.P.s05 = O.s05 := by subst e; exact ⟨rfl, rfl, rfl⟩
  have f4 : M.P.gamma = D.gamma ∧ M.P.stepmax = D.stepmax.toNat ∧ M.P.dx = I.dx ∧ M.P.dt = D.dt ∧
      M.P.VpSed = D.VpSed ∧ M.P.lam = D.lam ∧ M.P.uMax = D.uMax ∧ M.P.dryDepth = D.dryDepth ∧
      M.P.qw0 = D.qw0 ∧ M.P.h0 = I.h0 ∧ M.P.itermax = I.itermax.toNat := by
    subst e; exact ⟨rfl, rfl, rfl, rfl, rfl, rfl, rfl, rfl, rfl, rfl, rfl⟩
  have f5 : M.P.UeroSand = I.coeffUeroSand * I.u0 ∧ M.P.UeroMud = I.coeffUeroMud * I.u0 ∧
      M.P.UdepMud = I.coeffUdepMud * I.u0 := by subst e; exact ⟨rfl, rfl, rfl⟩
  have f6 : M.P.pwWater = (fun x => O.pow x I.thetaWater) ∧ M.P.pwBeta = fun x => O.pow x I.beta := by
    subst e; exact ⟨rfl, rfl⟩
  have f7 : M.P.pwSed = fun k x => match k with
      | .sand => O.pow x (I.coeffThetaSand * I.thetaWater)
      | .mud => O.pow x (I.coeffThetaMud * I.thetaWater) := by subst e; rfl
  have f8 : M.S.ncols = D.sizeInd.toNat := by subst e; rfl
  have f9 : ∀ c : Cell M.L M.W, (c.1.val : ℤ) < M.P.L0 → M.P.sigma c = 0 := by
    have hl0 : 0 ≤ D.L0 := by omega
    subst e
    intro c hc
    simp only [initialParams, initialSigma] at hc ⊢
    split_ifs with ht
    · simp [assign, (landRows_iff hl0 c).2 hc]
    · rfl
  have f10 : ∀ k, M.P.cellType (⟨0, s1⟩, M.P.inlet k) = 1 := by
    intro k
    obtain ⟨a, ha, -⟩ := hinlet
    subst e
    simp only [initialParams]
    have hmem := List.get_mem (inletCols (cellTypes (cellsAlong I.Length I.dx).toNat
      (cellsAlong I.Width I.dx).toNat (centre (cellsAlong I.Width I.dx)) D.L0 D.N0)) k
    simp only [inletCols, List.mem_filter, List.mem_finRange, true_and, decide_eq_true_eq] at hmem
    obtain ⟨i, hi⟩ := hmem
    have h1 := hcases (i, (inletCols (cellTypes (cellsAlong I.Length I.dx).toNat
      (cellsAlong I.Width I.dx).toNat (centre (cellsAlong I.Width I.dx)) D.L0 D.N0)).get k)
    have h2 := h1.1.1 hi
    exact (hcases _).1.2 ⟨lt_of_lt_of_le (by norm_num : ((0 : ℕ) : ℤ) < 2) hL0, h2.2⟩
  clear e
  obtain ⟨L, W, m, P, S⟩ := M
  simp only at *
  haveI : NeZero L := ⟨by omega⟩
  haveI : NeZero W := ⟨by omega⟩
  have z : (⟨0, s1⟩ : Fin L) = 0 := Fin.ext (by simp)
  rw [z] at f10
  obtain ⟨f21, f22, f23⟩ := f2
  obtain ⟨f31, f32, f33⟩ := f3
  obtain ⟨f41, f42, f43, f44, f45, f46, f47, f48, f49, f410, f411⟩ := f4
  obtain ⟨f51, f52, f53⟩ := f5
  obtain ⟨f61, f62⟩ := f6
  obtain ⟨a, ha1, ha2, ha3, ha4, ha5, -⟩ := hinlet
  have hu2 : 0 < I.u0 * I.u0 := mul_pos hF.u0 hF.u0
  have hact : ∀ c, P.cellType c ≠ -1 → P.cellType c ≠ -2 → c.1.val + 1 < L ∧ 0 < c.2.val ∧
      c.2.val + 1 < W := fun c h1 h2 => (hclosed c h1 h2).1
  have hlast : ∀ c : Cell L W, c.1.val + 1 = L → P.cellType c = -1 := by
    intro c hc
    exact (htypes c).2.2 (by omega) (.inl hc)
  have hpw : ∀ k x, 0 ≤ x → 0 ≤ P.pwSed k x := by
    intro k x hx
    rw [f7]
    cases k
    · exact hO.powNonneg _ _ (mul_nonneg hI.thetaSand hI.theta) hx
    · exact hO.powNonneg _ _ (mul_nonneg hI.thetaMud hI.theta) hx
  refine ⟨L, W, m, inferInstance, inferInstance, P, S, hM, ?_, ?_, ?_, ?_, ?_, by omega, ?_⟩
  · exact {
      hL0 := hL0
      hL := hL02
      hW := by omega
      active := hact
      last := hlast
      land := by
        intro c hc
        have := (htypes c).2.1
        intro h2
        have := this.1 (.inl h2)
        omega
      nrm := by rw [f31]; exact hO.nrmZero
      mod := by rw [f21]; exact fun _ => zero_le_one
      pw := by rw [f61]; exact fun x hx => hO.powNonneg _ _ hI.theta hx
      gamma0 := by
        rw [f41, b.egamma]
        have := hI.slope0
        have := hA.dx
        positivity
      gamma1 := by
        rw [f41, b.egamma, div_le_one hu2]
        exact hI.slope1
      steps := by rw [f42]; omega
      hm := by omega
      inlet := by intro k; rw [f10 k]; norm_num }
  · exact {
      hL := by omega
      active := fun c h => hact c h.1 h.2
      last := hlast
      below := by
        intro c n hc hn1 hn2 h2
        obtain ⟨t1, t2, t3, t4⟩ := hcases c
        have hn := (hcases n).2.1.1 h2
        rw [hn2] at hn
        rcases (htypes c).1 with h0 | h0 | h0 | h0
        · exact hc.2 h0
        · exact hn.2 (t1.1 h0).2
        · have := t3.1 (.inl h0)
          omega
        · exact hc.1 h0
      inlet := by intro k; unfold ActiveCell; rw [f10 k]; norm_num
      hm := by omega
      steps := by rw [f42]; omega
      s2 := by rw [f32]; exact hO.s2
      pw := hpw
      mod := by rw [f22]; exact fun _ => zero_le_one }
  · exact {
      s05 := by rw [f33]; exact hO.s05
      pw := by
        intro k x hx
        rw [f7]
        cases k
        · exact hO.powPos _ _ (mul_nonneg hI.thetaSand hI.theta) hx
        · exact hO.powPos _ _ (mul_nonneg hI.thetaMud hI.theta) hx
      mod := by rw [f22]; exact fun _ => zero_lt_one
      dry := by rw [f48]; exact p4.le }
  · exact {
      sed := {
        dx := by rw [f43]; exact hA.dx
        dt := by rw [f44]; exact p1
        vp := by rw [f45]; exact p3.le
        mod := by rw [f23]; exact fun _ => zero_le_one
        lam0 := by rw [f46, b.elam]; exact hI.lag0
        lam1 := by rw [f46, b.elam]; exact hI.lag1
        pwNonneg := by rw [f62]; exact fun x hx => hO.powNonneg _ _ hI.beta hx
        pwPos := by rw [f62]; exact fun x hx => hO.powPos _ _ hI.beta hx
        pwMono := by rw [f62]; exact fun x y hx hxy => hO.powMono _ _ _ hI.beta hx hxy
        eroSand := by rw [f51]; exact mul_pos hI.eroSand hF.u0
        eroMud := by rw [f52]; exact mul_pos hI.eroMud hF.u0
        depMud := by rw [f53]; exact mul_pos hI.depMud hF.u0
        uMax := by rw [f47]; exact p5.le
        s2 := by rw [f32]; exact hO.s2 }
      itermax := by rw [f411]; have := hF.itermax; omega
      dry := by rw [f48]; exact p4.le
      nrm := by rw [f31]; exact hO.nrm
      nrm0 := by
        rw [f31, f49, b.eqw0]
        exact hO.nrmAxis _ (mul_pos hF.u0 hF.h0).le
      h0 := by rw [f410]; exact hF.h0.le }
  · intro c
    exact (hinit c).2.2.2.2.2.2.2.2.2 hF.h0.le hI.hb
  · intro c hc
    exact f9 c ((htypes c).2.1.1 (.inl hc))

/-- C74: a model created from such a configuration makes any number of updates, whatever random numbers
are drawn, and afterwards: the time is the number of updates times the time step, the sea level
has risen accordingly, no depth is negative, surface sand fractions are between zero and one, the bed
of the land has not changed, and (after at least one update) depth is the difference of water surface and bed where positive, speed is between zero
and twice the inflow velocity, inlet cells are `h0` deep and carry the inflow. -/
theorem C74_run {O : Oracle K} (hO : OracleOk O) {I : Input K} (hI : Runnable I) {g : Rng K σ}
    (hg : PositiveDraws g) :
    ∃ (L W m : ℕ) (_ : NeZero L) (_ : NeZero W) (P : Params L W m K) (S : State L W K),
      create O I = .ok ⟨L, W, m, P, S⟩ ∧ 0 < P.dt ∧
      ∀ (n : ℕ) (s : σ), ∃ S' ls s', timesteps g (List.replicate n P) S s = .ok (S', ls, s') ∧
        S'.time = n * P.dt ∧ S'.HSL = I.HSL + n * (I.SLR * P.dt) ∧
        (∀ c, P.cellType c = -2 → S'.eta c = S.eta c) ∧
        (∀ c, 0 ≤ S'.depth c) ∧ (∀ c, 0 ≤ S'.sandFrac c ∧ S'.sandFrac c ≤ 1) ∧
        (0 < n → ∀ c, S'.depth c = max (S'.stage c - S'.eta c) 0 ∧ 0 ≤ S'.uw c ∧ S'.uw c ≤ 2 * I.u0) ∧
        (0 < n → ∀ k, S'.depth (0, P.inlet k) = I.h0 ∧ S'.qx (0, P.inlet k) = I.u0 * I.h0 ∧
          S'.qy (0, P.inlet k) = 0) := by
  obtain ⟨L, W, m, iL, iW, P, S, hc, hW, hD, -, hR, hd, hn, hsig⟩ := C74_created hO hI
  refine ⟨L, W, m, iL, iW, P, S, hc, hR.sed.dt, ?_⟩
  have hfix : P.h0 = I.h0 ∧ P.SLR = I.SLR ∧ P.uMax = 2 * I.u0 ∧ P.qw0 = I.u0 * I.h0 ∧
      S.time = 0 ∧ S.HSL = I.HSL ∧ P.actThick = resolveActThick I ∧ P.sandFracBc = I.sandFracBc ∧
      (∀ c, S.sandFrac c = 0 + I.sandFracBc) ∧ (∀ c, S.activeLayer c = 0 + I.sandFracBc) := by
    obtain ⟨-, D, hB, -, e⟩ := create_ok hc
    cases e
    have b := bc_ok hB
    exact ⟨rfl, rfl, b.euMax, b.eqw0, rfl, rfl, rfl, rfl, fun _ => rfl, fun _ => rfl⟩
  obtain ⟨e1, e2, e3, e4, e5, e6, e7, e8, e9, e10⟩ := hfix
  intro n s
  obtain ⟨S', ls, s', h⟩ := C71_run hg (Ps := List.replicate n P)
    (fun Q hQ => by rw [List.eq_of_mem_replicate hQ]; exact ⟨hW, hD, hR.h0⟩) hd hn s
  have hth : 0 ≤ P.actThick := by
    rw [e7]
    unfold resolveActThick
    cases ht : I.actThick with
    | none => exact div_nonneg hI.flowing.h0.le (by norm_num)
    | some t => exact hI.accepted.act t ht
  refine ⟨S', ls, s', h, ?_, ?_, ?_, ?_, ?_, ?_, ?_⟩
  · rw [(C35_linear h).1, e5, zero_add]
  · rw [(C35_linear h).2.1, e6, e2]
  · intro c hcl
    exact C38_land hg (fun Q hQ => by
      rw [List.eq_of_mem_replicate hQ]; exact ⟨hD, hR.h0, hcl, hsig c hcl⟩) hd h
  · intro c
    rcases Nat.eq_zero_or_pos n with rfl | hpos
    · cases h
      exact hd c
    · obtain ⟨k, rfl⟩ : ∃ k, n = k + 1 := ⟨n - 1, by omega⟩
      rw [List.replicate_succ'] at h
      rw [(C36_run hR.h0 h c).1]
      exact le_max_right _ _
  · intro c
    refine (C32_run (fun Q hQ => ?_) h (fun c => ?_) c).1
    · rw [List.eq_of_mem_replicate hQ, e8]
      exact ⟨hth, hI.sand0, hI.sand1⟩
    · rw [e9, e10, zero_add]
      exact ⟨⟨hI.sand0, hI.sand1⟩, hI.sand0, hI.sand1⟩
  · intro hpos c
    obtain ⟨k, rfl⟩ : ∃ k, n = k + 1 := ⟨n - 1, by omega⟩
    rw [List.replicate_succ'] at h
    obtain ⟨a, -, -⟩ := C36_run hR.h0 h c
    have := C21_run hR h c
    rw [e3] at this
    exact ⟨a, this⟩
  · intro hpos k
    obtain ⟨j, rfl⟩ : ∃ j, n = j + 1 := ⟨n - 1, by omega⟩
    rw [List.replicate_succ'] at h
    have h1 := (C37_run h k).1
    have h2 := (C20_run hR h).inlet (0, P.inlet k) ⟨by simp, k, rfl⟩
    rw [e1] at h1
    rw [e4] at h2
    exact ⟨h1, h2.1, h2.2.1⟩

/-! ## Non-trivial case: the default configuration -/

/-- The defaults of pyDeltaRCM/default.yml. -/
def exInput : Input ℚ where
  Length := 5000
  Width := 10000
  dx := 50
  L0m := 150
  S0 := 3 / 20000
  itermax := 3
  NpWater := 2000
  u0 := 1
  N0m := 250
  h0 := 5
  hb := none
  HSL := 0
  SLR := 0
  NpSed := 2000
  fBedload := 1 / 2
  actThick := none
  C0pct := 1 / 10
  Csmooth := 9 / 10
  toggleSub := false
  subRate := 1 / 500000000
  startSub := 216000
  saveDt := 86400
  ckptDt := none
  omegaSfc := 1 / 10
  omegaFlow := 9 / 10
  Nsmooth := 10
  thetaWater := 1
  coeffThetaSand := 2
  coeffThetaMud := 1
  beta := 3
  sedLag := 1
  coeffUdepMud := 3 / 10
  coeffUeroMud := 3 / 2
  coeffUeroSand := 21 / 20
  alpha := 1 / 10
  stepmax := none
  sandFracBc := 0

lemma exAccepted : Accepted exInput := (C50_validate _).1 (by decide +kernel)

/-- The default configuration can be run. -/
theorem exRunnable : Runnable exInput where
  accepted := exAccepted
  flowing := ⟨by norm_num [exInput], by norm_num [exInput], by norm_num [exInput],
    by norm_num [exInput]⟩
  hb := by simp [exInput]
  rows := by decide +kernel
  L := by decide +kernel
  W := by decide +kernel
  slope0 := by norm_num [exInput]
  slope1 := by norm_num [exInput]
  steps := by simp [exInput]
  lag0 := by norm_num [exInput]
  lag1 := by norm_num [exInput]
  eroSand := by norm_num [exInput]
  eroMud := by norm_num [exInput]
  depMud := by norm_num [exInput]
  theta := by norm_num [exInput]
  thetaSand := by norm_num [exInput]
  thetaMud := by norm_num [exInput]
  beta := by norm_num [exInput]
  sand0 := by norm_num [exInput]
  sand1 := by norm_num [exInput]

/-- Rational stand-ins for roots and powers. -/
def exOracle : Oracle ℚ where
  s2 := 7 / 5
  s05 := 7 / 10
  nrm := fun x y => |x| + |y|
  pow := fun x _ => x * x

lemma exOracleOk : OracleOk exOracle where
  s2 := by norm_num [exOracle]
  s05 := by norm_num [exOracle]
  nrm := fun x y => by simp only [exOracle]; positivity
  nrmZero := by
    intro x y h
    simp only [exOracle] at h
    have h1 := abs_nonneg x
    have h2 := abs_nonneg y
    exact ⟨abs_eq_zero.1 (by linarith), abs_eq_zero.1 (by linarith)⟩
  nrmAxis := fun x hx => by simp [exOracle, abs_of_nonneg hx]
  powNonneg := fun x _ _ _ => mul_self_nonneg x
  powPos := fun x _ _ hx => mul_pos hx hx
  powMono := fun x y _ _ hx h => mul_self_le_mul_self hx h

/-- The derived quantities of the default configuration. -/
example : (boundaryConditions exInput 100 200).map (fun D => (D.L0, D.N0, D.dt, D.Ncross, D.stepmax)) =
    .ok (3, 5, 25000, 2, 600) := by decide +kernel

example : ∃ M, create exOracle exInput = .ok M ∧ M.L = 100 ∧ M.W = 200 ∧ M.m = 5 := by
  obtain ⟨L, W, m, iL, iW, P, S, h, -⟩ := C74_created exOracleOk exRunnable
  obtain ⟨s1, s2, s3, s4⟩ := create_size h
  have e1 : cellsAlong exInput.Length exInput.dx = 100 := by decide +kernel
  have e2 : cellsAlong exInput.Width exInput.dx = 200 := by decide +kernel
  rw [e1] at s3
  rw [e2] at s4
  simp only at s3 s4
  have hW : W = 200 := by omega
  obtain ⟨a, -, -, -, -, -, -, hm, -⟩ := C51_inlet_partial h (by simp only; omega)
  have e3 : roundHalfEven (exInput.N0m / exInput.dx) = 5 := by decide +kernel
  rw [e3] at hm
  have := hm (by norm_num) (by simp only; omega)
  exact ⟨_, h, by simp only; omega, by simp only; omega, by simp only at this ⊢; omega⟩

/-- C50 fails for this accepted configuration without sediment supply. -/
example : Accepted { exInput with C0pct := 0 } ∧
    create exOracle { exInput with C0pct := 0 } = .error .zeroDivision := by
  have h : validate { exInput with C0pct := 0 } = .ok () := by decide +kernel
  refine ⟨(C50_validate _).1 h, ?_⟩
  unfold create
  rw [h]
  simp only
  rw [C50_zero_division _ _ _ (.inl rfl)]

/-- C50 fails for this accepted configuration with outflow. -/
example : Accepted { exInput with u0 := -1 } ∧
    (boundaryConditions { exInput with u0 := -1 } 100 200).map (fun D => D.dt) = .ok (-25000) :=
  ⟨(C50_validate _).1 (by decide +kernel), by decide +kernel⟩

end Verif.Props
