import Verif.Model.Setters
import Verif.Props.Created

/-!
# C56: changing boundary conditions through named properties
-/

set_option linter.unusedSectionVars false
set_option linter.unusedSimpArgs false

namespace Verif.Props

open Verif.Model Verif.Lemmas Verif.Spec

variable {K : Type*} [Field K] [LinearOrder K] [IsStrictOrderedRing K] [FloorRing K] {σ : Type*}
  {L W m : ℕ}

/-! ## Histories -/

/-- A model as it is created. -/
def Fresh (O : Oracle K) (M : Live L W m K) : Prop :=
  create O M.I = .ok ⟨L, W, m, M.P, M.S⟩ ∧ boundaryConditions M.I L W = .ok M.D

lemma fresh_of_create {O : Oracle K} {I : Input K} {P : Params L W m K} {S : State L W K}
    (h : create O I = .ok ⟨L, W, m, P, S⟩) : ∃ M : Live L W m K, Fresh O M ∧ M.I = I ∧ M.P = P ∧
      M.S = S := by
  obtain ⟨-, -, s3, s4⟩ := create_size h
  obtain ⟨-, D, hD, -, -⟩ := create_ok h
  refine ⟨⟨I, D, P, S⟩, ⟨h, ?_⟩, rfl, rfl, rfl⟩
  simp only at s3 s4 ⊢
  rw [s3, s4]
  exact hD

section
variable [NeZero L] [NeZero W]

lemma session_append {g : Rng K σ} : ∀ (as bs : List (Act K)) (M : Live L W m K) (s : σ),
    session g (as ++ bs) M s = match session g as M s with
      | .error e => .error e
      | .ok (M1, s1) => session g bs M1 s1
  | [], bs, M, s => rfl
  | a :: as, bs, M, s => by
    simp only [List.cons_append, session]
    cases act g M s a with
    | error e => rfl
    | ok r => exact session_append as bs r.1 r.2

/-- What every successful action keeps, every successful history keeps. -/
lemma session_inv {g : Rng K σ} {A : Act K → Prop} {Q : Live L W m K → Prop}
    (hstep : ∀ a M s M' s', A a → Q M → act g M s a = .ok (M', s') → Q M') :
    ∀ {as : List (Act K)} {M M' : Live L W m K} {s s' : σ}, (∀ a ∈ as, A a) → Q M →
      session g as M s = .ok (M', s') → Q M'
  | [], M, M', s, s', _, hQ, h => by cases h; exact hQ
  | a :: as, M, M', s, s', hA, hQ, h => by
    simp only [session] at h
    generalize hx : act g M s a = x at h
    cases x with
    | error e => simp at h
    | ok r =>
      obtain ⟨M1, s1⟩ := r
      exact session_inv hstep (fun b hb => hA b (List.mem_cons_of_mem _ hb))
        (hstep a M s M1 s1 (hA a List.mem_cons_self) hQ hx) h
end

/-! ## What one write does -/

lemma rebound_ok {M M' : Live L W m K} {I : Input K} (h : rebound M I = .ok M') :
    ∃ D, boundaryConditions I L W = .ok D ∧ M' = ⟨I, D, afterBc M.P I D, M.S⟩ := by
  unfold rebound at h
  cases hb : boundaryConditions I L W with
  | error e => rw [hb] at h; simp at h
  | ok D =>
    rw [hb] at h
    simp only [Except.ok.injEq] at h
    exact ⟨D, rfl, h.symm⟩

/-- The configuration values after a write. -/
def written (I : Input K) : SetOp K → Input K
  | .velocity x => { I with u0 := x }
  | .width x => { I with N0m := x }
  | .depth x => { I with h0 := x }
  | .conc x => { I with C0pct := x * 100 }
  | .seaLevel _ => I
  | .slr x => { I with SLR := x }
  | .bedload x => { I with fBedload := x }
  | .timeStep _ => I

/-- Writes of the flow through the inlet. -/
def FlowWrite : SetOp K → Prop
  | .velocity _ | .width _ | .depth _ | .conc _ => True
  | _ => False

lemma write_flow {M M' : Live L W m K} {op : SetOp K} (hf : FlowWrite op) (h : write M op = .ok M') :
    ∃ D, boundaryConditions (written M.I op) L W = .ok D ∧
      M' = ⟨written M.I op, D, afterBc M.P (written M.I op) D, M.S⟩ := by
  cases op with
  | velocity x => exact rebound_ok h
  | depth x => exact rebound_ok h
  | width x =>
    simp only [write] at h
    split_ifs at h
    exact rebound_ok h
  | conc x =>
    simp only [write] at h
    split_ifs at h
    exact rebound_ok h
  | seaLevel x => exact hf.elim
  | slr x => exact hf.elim
  | bedload x => exact hf.elim
  | timeStep x => exact hf.elim

lemma write_input {M M' : Live L W m K} {op : SetOp K} (h : write M op = .ok M') :
    M'.I = written M.I op := by
  cases op with
  | velocity x => obtain ⟨D, -, e⟩ := rebound_ok h; rw [e]; rfl
  | depth x => obtain ⟨D, -, e⟩ := rebound_ok h; rw [e]; rfl
  | width x =>
    obtain ⟨D, -, e⟩ := write_flow (op := .width x) trivial h; rw [e]
  | conc x =>
    obtain ⟨D, -, e⟩ := write_flow (op := .conc x) trivial h; rw [e]
  | seaLevel x => cases h; rfl
  | slr x => cases h; rfl
  | bedload x =>
    simp only [write] at h
    split_ifs at h
    cases h; rfl
  | timeStep x => cases h; rfl

/-! ## Discharge and sediment supply -/

/-- What the flow through the inlet should be for the values in `I`: in words, the water parcels carry
velocity × depth × width, the sediment parcels together the volume of a tenth of a cube of water of
the width of the inlet, the unit discharges are those of the values, and the limits follow velocity
and depth. -/
structure Supply (I : Input K) (L W : ℕ) (D : Derived K) (P : Params L W m K) : Prop where
  cells : D.N0 = max 3 (min (roundHalfEven (I.N0m / I.dx)) ((W : ℤ) / 4))
  u0 : P.u0 = I.u0
  h0 : P.h0 = I.h0
  unit : P.qw0 = I.u0 * I.h0
  water : (I.NpWater : K) * P.QpWater = I.u0 * I.h0 * (D.N0 * I.dx)
  unitSed : P.qs0 = I.u0 * I.h0 * (I.C0pct / 100)
  sediment : (I.NpSed : K) * P.VpSed = I.h0 * (D.N0 * I.dx) * (D.N0 * I.dx) / 10
  speed : P.uMax = 2 * I.u0
  dry : P.dryDepth = min (1 / 10) (I.h0 / 10)
  slope : P.gamma * (I.u0 * I.u0) = 981 / 100 * I.S0 * I.dx
  rise : P.SLR = I.SLR
  sand : P.fBedload = I.fBedload
  counts : (P.NpWater : ℤ) = I.NpWater ∧ (P.NpSed : ℤ) = I.NpSed

lemma supply_of_bc {I : Input K} {D : Derived K} {P : Params L W m K}
    (hA : 0 < I.NpWater ∧ 0 < I.NpSed) (h : boundaryConditions I L W = .ok D) (h1 : P.u0 = I.u0)
    (h2 : P.h0 = I.h0) (h3 : P.qw0 = D.qw0) (h4 : P.QpWater = D.QpWater) (h5 : P.qs0 = D.qs0)
    (h6 : P.VpSed = D.VpSed) (h7 : P.uMax = D.uMax) (h8 : P.dryDepth = D.dryDepth)
    (h9 : P.gamma = D.gamma) (h10 : P.SLR = I.SLR) (h11 : P.fBedload = I.fBedload)
    (h12 : (P.NpWater : ℤ) = I.NpWater) (h13 : (P.NpSed : ℤ) = I.NpSed) : Supply I L W D P := by
  have b := bc_ok h
  have e1 : (I.NpWater : K) ≠ 0 := by have := hA.1; exact_mod_cast (ne_of_gt this)
  have e2 : (I.NpSed : K) ≠ 0 := by have := hA.2; exact_mod_cast (ne_of_gt this)
  have hu : I.u0 * I.u0 ≠ 0 := mul_ne_zero b.u0 b.u0
  refine ⟨b.eN0, h1, h2, by rw [h3, b.eqw0], ?_, ?_, ?_, by rw [h7, b.euMax], ?_, ?_, h10, h11, h12, h13⟩
  · rw [h4, b.eQp, mul_div_cancel₀ _ e1, b.eQw0]; ring
  · rw [h5, b.eqs0, b.eqw0, b.eC0]; ring
  · rw [h6, b.eVp, mul_div_cancel₀ _ e2, b.edVs, b.eV0]; ring
  · rw [h8, b.edry]; congr 1; ring
  · rw [h9, b.egamma, div_mul_cancel₀ _ hu]

lemma supply_fresh {O : Oracle K} {M : Live L W m K} (h : Fresh O M) : Supply M.I L W M.D M.P := by
  obtain ⟨hA, D, hD, -, e⟩ := create_ok h.1
  obtain ⟨-, -, s3, s4⟩ := create_size h.1
  simp only at s3 s4
  have hD' := h.2
  rw [s3, s4, hD] at hD'
  cases hD'
  obtain ⟨I, D, P, S⟩ := M
  simp only at *
  cases e
  refine supply_of_bc ⟨hA.NpWater, hA.NpSed⟩ h.2 rfl rfl rfl rfl rfl rfl rfl rfl rfl rfl rfl ?_ ?_
  · have := hA.NpWater
    simp only [initialParams]; omega
  · have := hA.NpSed
    simp only [initialParams]; omega

lemma supply_write {M M' : Live L W m K} {op : SetOp K} (hA : 0 < M.I.NpWater ∧ 0 < M.I.NpSed)
    (hs : Supply M.I L W M.D M.P) (h : write M op = .ok M') :
    (0 < M'.I.NpWater ∧ 0 < M'.I.NpSed) ∧ Supply M'.I L W M'.D M'.P := by
  have hflow : FlowWrite op → (0 < M'.I.NpWater ∧ 0 < M'.I.NpSed) ∧ Supply M'.I L W M'.D M'.P := by
    intro hf
    obtain ⟨D, hD, e⟩ := write_flow hf h
    subst e
    cases op with
    | velocity x =>
      exact ⟨hA, supply_of_bc hA hD rfl rfl rfl rfl rfl rfl rfl rfl rfl hs.rise hs.sand hs.counts.1
        hs.counts.2⟩
    | width x =>
      exact ⟨hA, supply_of_bc hA hD rfl rfl rfl rfl rfl rfl rfl rfl rfl hs.rise hs.sand hs.counts.1
        hs.counts.2⟩
    | depth x =>
      exact ⟨hA, supply_of_bc hA hD rfl rfl rfl rfl rfl rfl rfl rfl rfl hs.rise hs.sand hs.counts.1
        hs.counts.2⟩
    | conc x =>
      exact ⟨hA, supply_of_bc hA hD rfl rfl rfl rfl rfl rfl rfl rfl rfl hs.rise hs.sand hs.counts.1
        hs.counts.2⟩
    | seaLevel x => exact hf.elim
    | slr x => exact hf.elim
    | bedload x => exact hf.elim
    | timeStep x => exact hf.elim
  cases op with
  | velocity x => exact hflow trivial
  | width x => exact hflow trivial
  | depth x => exact hflow trivial
  | conc x => exact hflow trivial
  | seaLevel x => cases h; exact ⟨hA, hs⟩
  | slr x =>
    cases h
    exact ⟨hA, ⟨hs.cells, hs.u0, hs.h0, hs.unit, hs.water, hs.unitSed, hs.sediment, hs.speed, hs.dry,
      hs.slope, rfl, hs.sand, hs.counts⟩⟩
  | bedload x =>
    simp only [write] at h
    split_ifs at h
    cases h
    exact ⟨hA, ⟨hs.cells, hs.u0, hs.h0, hs.unit, hs.water, hs.unitSed, hs.sediment, hs.speed, hs.dry,
      hs.slope, hs.rise, rfl, hs.counts⟩⟩
  | timeStep x =>
    cases h
    exact ⟨hA, ⟨hs.cells, hs.u0, hs.h0, hs.unit, hs.water, hs.unitSed, hs.sediment, hs.speed, hs.dry,
      hs.slope, hs.rise, hs.sand, hs.counts⟩⟩

/-- C56: after any successful sequence of writes and updates, discharge and sediment supply (in total,
per parcel and per width) agree with the values the properties have then. -/
theorem C56_supply [NeZero L] [NeZero W] {O : Oracle K} {g : Rng K σ} {M M' : Live L W m K}
    {as : List (Act K)} {s s' : σ} (hM : Fresh O M) (h : session g as M s = .ok (M', s')) :
    Supply M'.I L W M'.D M'.P := by
  have hA := (create_ok hM.1).1
  refine (session_inv (A := fun _ => True)
    (Q := fun M => (0 < M.I.NpWater ∧ 0 < M.I.NpSed) ∧ Supply M.I L W M.D M.P) ?_ (fun _ _ => trivial)
    ⟨⟨hA.NpWater, hA.NpSed⟩, supply_fresh hM⟩ h).2
  intro a M s M' s' _ hQ h
  cases a with
  | set op =>
    simp only [act] at h
    generalize hx : write M op = x at h
    cases x with
    | error e => simp at h
    | ok M1 =>
      simp only [Except.ok.injEq, Prod.mk.injEq] at h
      rw [← h.1]
      exact supply_write hQ.1 hQ.2 hx
  | update =>
    simp only [act] at h
    generalize hx : timestep g M.P M.S s = x at h
    cases x with
    | error e => simp at h
    | ok r =>
      obtain ⟨S1, l, s1⟩ := r
      simp only [Except.ok.injEq, Prod.mk.injEq] at h
      rw [← h.1]
      exact hQ

/-- C56: after writing velocity, width, depth or concentration, the time step is the one in which the
supply rate of the new values brings the volume of the sediment parcels. -/
theorem C56_time_step {M M' : Live L W m K} {op : SetOp K} (hf : FlowWrite op)
    (h : write M op = .ok M') (hp : 0 < M.I.NpSed) :
    readTimeStep M' = M'.D.dt ∧ (M'.I.NpSed : K) * M'.P.VpSed =
      M'.I.u0 * M'.I.h0 * (M'.D.N0 * M'.I.dx) * (M'.I.C0pct / 100) * readTimeStep M' := by
  obtain ⟨D, hD, e⟩ := write_flow hf h
  have hp' : 0 < (written M.I op).NpSed := by cases op <;> exact hp
  have b := bc_ok hD
  subst e
  simp only [readTimeStep, afterBc]
  refine ⟨trivial, ?_⟩
  generalize hI : written M.I op = I at *
  have e2 : (I.NpSed : K) ≠ 0 := by exact_mod_cast (ne_of_gt hp')
  have e3 : I.u0 * I.h0 * (↑D.N0 * I.dx) * (I.C0pct / 100) = D.Qs0 := by
    rw [b.eQs0, b.eQw0, b.eC0]; ring
  rw [b.eVp, mul_div_cancel₀ _ e2, e3, b.edt, mul_div_cancel₀ _ b.Qs]

/-! ## Reading back -/

/-- What was last written to velocity, depth, rate of sea level rise and bed load, if anything. -/
def lastOf (f : SetOp K → Option K) : List (Act K) → Option K
  | [] => none
  | a :: as => (lastOf f as).or (match a with
    | .set op => f op
    | .update => none)

/-- see `lastOf` -/
def asVelocity : SetOp K → Option K
  | .velocity x => some x
  | _ => none
/-- see `lastOf` -/
def asDepth : SetOp K → Option K
  | .depth x => some x
  | _ => none
/-- see `lastOf` -/
def asSlr : SetOp K → Option K
  | .slr x => some x
  | _ => none
/-- see `lastOf` -/
def asBedload : SetOp K → Option K
  | .bedload x => some x
  | _ => none
/-- see `lastOf` -/
def asConc : SetOp K → Option K
  | .conc x => some x
  | _ => none

lemma act_set {g : Rng K σ} [NeZero L] [NeZero W] {M M' : Live L W m K} {s s' : σ} {op : SetOp K}
    (h : act g M s (.set op) = .ok (M', s')) : write M op = .ok M' ∧ s' = s := by
  simp only [act] at h
  generalize hx : write M op = x at h
  cases x with
  | error e => simp at h
  | ok M1 =>
    simp only [Except.ok.injEq, Prod.mk.injEq] at h
    rw [h.1]
    exact ⟨rfl, h.2.symm⟩

lemma act_update {g : Rng K σ} [NeZero L] [NeZero W] {M M' : Live L W m K} {s s' : σ}
    (h : act g M s .update = .ok (M', s')) :
    ∃ S1 l, timestep g M.P M.S s = .ok (S1, l, s') ∧ M' = { M with S := S1 } := by
  simp only [act] at h
  generalize hx : timestep g M.P M.S s = x at h
  cases x with
  | error e => simp at h
  | ok r =>
    obtain ⟨S1, l, s1⟩ := r
    simp only [Except.ok.injEq, Prod.mk.injEq] at h
    rw [← h.1, ← h.2]
    exact ⟨S1, l, rfl, rfl⟩

lemma read_last [NeZero L] [NeZero W] {g : Rng K σ} {f : SetOp K → Option K} {read : Input K → K}
    (hw : ∀ (I : Input K) (op : SetOp K), read (written I op) = (f op).getD (read I)) :
    ∀ {as : List (Act K)} {M M' : Live L W m K} {s s' : σ}, session g as M s = .ok (M', s') →
      read M'.I = (lastOf f as).getD (read M.I)
  | [], M, M', s, s', h => by cases h; rfl
  | a :: as, M, M', s, s', h => by
    simp only [session] at h
    generalize hx : act g M s a = x at h
    cases x with
    | error e => simp at h
    | ok r =>
      obtain ⟨M1, s1⟩ := r
      rw [read_last hw h]
      have h1 : read M1.I = (match a with
          | .set op => f op
          | .update => none).getD (read M.I) := by
        cases a with
        | set op => rw [write_input (act_set hx).1]; exact hw M.I op
        | update =>
          obtain ⟨S1, l, -, e⟩ := act_update hx
          rw [e]; rfl
      rw [h1]
      show _ = ((lastOf f as).or _).getD _
      cases lastOf f as <;> rfl

/-- C56: velocity, depth, rate of sea level rise and bed load fraction read what was last written,
whatever else was written and however often the model was updated in between.
Partial: C56 claims this of all properties. For the others see `C56_read_at_once`, `C56_width_partial`,
`C56_conc`, `C56_time_step_lost`. -/
theorem C56_read_partial [NeZero L] [NeZero W] {g : Rng K σ} {as : List (Act K)}
    {M M' : Live L W m K} {s s' : σ} (h : session g as M s = .ok (M', s')) :
    readVelocity M' = (lastOf asVelocity as).getD (readVelocity M) ∧
    readDepth M' = (lastOf asDepth as).getD (readDepth M) ∧
    readSlr M' = (lastOf asSlr as).getD (readSlr M) ∧
    readBedload M' = (lastOf asBedload as).getD (readBedload M) := by
  refine ⟨read_last (read := Input.u0) ?_ h, read_last (read := Input.h0) ?_ h,
    read_last (read := Input.SLR) ?_ h, read_last (read := Input.fBedload) ?_ h⟩ <;>
  · intro I op; cases op <;> rfl

/-- C56 fails for the concentration: reading gives a hundred times the last written value. -/
theorem C56_conc [NeZero L] [NeZero W] {g : Rng K σ} {as : List (Act K)}
    {M M' : Live L W m K} {s s' : σ} (h : session g as M s = .ok (M', s')) (x : K)
    (hx : lastOf asConc as = some x) : readConc M' = 100 * x := by
  have := read_last (g := g) (f := fun op => (asConc op).map (· * 100)) (read := Input.C0pct)
    (by intro I op; cases op <;> rfl) h
  have hmap : ∀ as : List (Act K), lastOf (fun op => (asConc op).map (· * 100)) as =
      (lastOf asConc as).map (· * 100) := by
    intro as
    induction as with
    | nil => rfl
    | cons a as ih =>
      unfold lastOf
      rw [ih]
      cases lastOf asConc as <;> cases a <;> rfl
  rw [hmap, hx] at this
  unfold readConc
  rw [this]
  simp [mul_comm]

/-- C56: sea level and time step read what was written, directly after writing. -/
theorem C56_read_at_once (M : Live L W m K) (x : K) :
    (∃ M', write M (.seaLevel x) = .ok M' ∧ readSeaLevel M' = x) ∧
    ∃ M', write M (.timeStep x) = .ok M' ∧ readTimeStep M' = x :=
  ⟨⟨_, rfl, rfl⟩, ⟨_, rfl, rfl⟩⟩

/-- C56 fails for the time step: a later write of velocity, width, depth or concentration forgets it. -/
theorem C56_time_step_lost {M M1 M2 : Live L W m K} {op : SetOp K} (hf : FlowWrite op) {x : K}
    (h1 : write M (.timeStep x) = .ok M1) (h2 : write M1 op = .ok M2) :
    ∃ M2', write M op = .ok M2' ∧ readTimeStep M2 = readTimeStep M2' := by
  cases h1
  obtain ⟨D, hD, e⟩ := write_flow hf h2
  cases op with
  | velocity y =>
    simp only [written] at hD
    refine ⟨_, by simp only [write, rebound]; rw [hD], by rw [e]; rfl⟩
  | depth y =>
    simp only [written] at hD
    refine ⟨_, by simp only [write, rebound]; rw [hD], by rw [e]; rfl⟩
  | width y =>
    simp only [written] at hD
    have : ¬ y ≤ 0 := by
      intro hy; simp [write, hy] at h2
    refine ⟨_, by simp only [write, rebound]; rw [if_neg this, hD], by rw [e]; rfl⟩
  | conc y =>
    simp only [written] at hD
    have : ¬ y * 100 < 0 := by
      intro hy; simp [write, hy] at h2
    refine ⟨_, by simp only [write, rebound]; rw [if_neg this, hD], by rw [e]; rfl⟩
  | seaLevel x => exact hf.elim
  | slr x => exact hf.elim
  | bedload x => exact hf.elim
  | timeStep x => exact hf.elim

/-- C56: a width of a whole number of cells, not less than 3 and not more than a quarter of the
domain, is read back as written.
Partial: other widths are rounded or clipped (the code warns). -/
theorem C56_width_partial {M M' : Live L W m K} {x : K} (h : write M (.width x) = .ok M')
    (hdx : M.I.dx ≠ 0) (n : ℤ) (hn : x = n * M.I.dx) (h3 : 3 ≤ n) (h4 : n ≤ (W : ℤ) / 4) :
    readWidth M' = x := by
  obtain ⟨D, hD, e⟩ := write_flow (op := .width x) trivial h
  have b := bc_ok hD
  subst e
  simp only [readWidth, written] at *
  rw [b.eN0]
  have : x / M.I.dx = (n : K) := by rw [hn, mul_div_cancel_right₀ _ hdx]
  rw [this, round_int, min_eq_left h4, max_eq_right h3, hn]

/-! ## What is not updated -/

/-- What writes never change: the cells of the inlet and the layout, the thresholds of velocity, the
thickness of the active layer. -/
def Kept (P P' : Params L W m K) : Prop :=
  P'.inlet = P.inlet ∧ P'.cellType = P.cellType ∧ P'.UdepMud = P.UdepMud ∧
  P'.UeroMud = P.UeroMud ∧ P'.UeroSand = P.UeroSand ∧ P'.actThick = P.actThick

lemma write_kept {M M' : Live L W m K} {op : SetOp K} (h : write M op = .ok M') : Kept M.P M'.P := by
  by_cases hf : FlowWrite op
  · obtain ⟨D, -, e⟩ := write_flow hf h
    subst e
    exact ⟨rfl, rfl, rfl, rfl, rfl, rfl⟩
  · cases op with
    | velocity x => exact absurd trivial hf
    | width x => exact absurd trivial hf
    | depth x => exact absurd trivial hf
    | conc x => exact absurd trivial hf
    | seaLevel x => cases h; exact ⟨rfl, rfl, rfl, rfl, rfl, rfl⟩
    | slr x => cases h; exact ⟨rfl, rfl, rfl, rfl, rfl, rfl⟩
    | timeStep x => cases h; exact ⟨rfl, rfl, rfl, rfl, rfl, rfl⟩
    | bedload x =>
      simp only [write] at h
      split_ifs at h
      cases h; exact ⟨rfl, rfl, rfl, rfl, rfl, rfl⟩

/-- C56 fails: the thresholds of deposition and erosion stay those of the velocity at creation, and
the inlet keeps its cells, whatever is written. -/
theorem C56_kept [NeZero L] [NeZero W] {O : Oracle K} {g : Rng K σ} {M M' : Live L W m K}
    {as : List (Act K)} {s s' : σ} (hM : Fresh O M) (h : session g as M s = .ok (M', s')) :
    M'.P.inlet = M.P.inlet ∧ M'.P.cellType = M.P.cellType ∧
    M'.P.UdepMud = M.I.coeffUdepMud * M.I.u0 ∧ M'.P.UeroMud = M.I.coeffUeroMud * M.I.u0 ∧
    M'.P.UeroSand = M.I.coeffUeroSand * M.I.u0 := by
  have hk : Kept M.P M'.P := by
    refine session_inv (A := fun _ => True) (Q := fun X => Kept M.P X.P) ?_ (fun _ _ => trivial)
      ⟨rfl, rfl, rfl, rfl, rfl, rfl⟩ h
    intro a X s X' s' _ hQ hx
    cases a with
    | set op =>
      have := write_kept (act_set hx).1
      unfold Kept at *
      simp [this, hQ]
    | update =>
      obtain ⟨S1, l, -, e⟩ := act_update hx
      rw [e]; exact hQ
  have h0 : M.P.UdepMud = M.I.coeffUdepMud * M.I.u0 ∧ M.P.UeroMud = M.I.coeffUeroMud * M.I.u0 ∧
      M.P.UeroSand = M.I.coeffUeroSand * M.I.u0 := by
    obtain ⟨-, D, hD, -, e⟩ := create_ok hM.1
    obtain ⟨I, D, P, S⟩ := M
    simp only at *
    cases e
    exact ⟨rfl, rfl, rfl⟩
  obtain ⟨k1, k2, k3, k4, k5, -⟩ := hk
  exact ⟨k1, k2, by rw [k3, h0.1], by rw [k4, h0.2.1], by rw [k5, h0.2.2]⟩

/-- C56 fails: writing the bed load fraction changes the number of sand parcels but not the transport
capacity, which keeps the old fraction until another property is written. -/
theorem C56_bedload_stale {M M' : Live L W m K} {x : K} (h : write M (.bedload x) = .ok M') :
    M'.P.fBedload = x ∧ M'.P.fCap = M.P.fCap := by
  simp only [write] at h
  split_ifs at h
  cases h
  exact ⟨rfl, rfl⟩

/-- C56: each write that sets up the routers again brings the fraction there. -/
theorem C56_bedload_refreshed {M M' : Live L W m K} {op : SetOp K}
    (hop : FlowWrite op ∨ ∃ x, op = .timeStep x) (h : write M op = .ok M') :
    M'.P.fCap = M.I.fBedload := by
  rcases hop with hf | ⟨x, rfl⟩
  · obtain ⟨D, -, e⟩ := write_flow hf h
    subst e
    cases op <;> first | rfl | exact hf.elim
  · cases h; rfl

/-! ## Subsidence -/

/-- The subsidence per step agrees with the time step. -/
def SigmaOk (rate : Grid L W K) (P : Params L W m K) : Prop := ∀ c, P.sigma c = rate c * P.dt

lemma toggle_kept {M M' : Live L W m K} {op : SetOp K} (h : write M op = .ok M') :
    M'.P.toggleSub = M.P.toggleSub := by
  by_cases hf : FlowWrite op
  · obtain ⟨D, -, e⟩ := write_flow hf h
    subst e; rfl
  · cases op with
    | velocity x => exact absurd trivial hf
    | width x => exact absurd trivial hf
    | depth x => exact absurd trivial hf
    | conc x => exact absurd trivial hf
    | seaLevel x => cases h; rfl
    | slr x => cases h; rfl
    | timeStep x => cases h; rfl
    | bedload x =>
      simp only [write] at h
      split_ifs at h
      cases h; rfl

/-- C56: as long as only the time step, the sea level, its rate and the bed load are written, the
subsidence per step is the rate times the time step.
Partial: C56 claims this for all writes, see `C56_sigma_stale`. -/
theorem C56_subsidence_partial [NeZero L] [NeZero W] {g : Rng K σ} {M M' : Live L W m K}
    {as : List (Act K)} {s s' : σ} {rate : Grid L W K} (ht : M.P.toggleSub = true)
    (hr : SigmaOk rate M.P) (hdt : M.P.dt ≠ 0)
    (hops : ∀ op, Act.set op ∈ as → ¬ FlowWrite op ∧ op ≠ .timeStep 0)
    (h : session g as M s = .ok (M', s')) : SigmaOk rate M'.P := by
  refine (session_inv (A := fun a => ∀ op, a = Act.set op → ¬ FlowWrite op ∧ op ≠ .timeStep 0)
    (Q := fun X => X.P.toggleSub = true ∧ X.P.dt ≠ 0 ∧ SigmaOk rate X.P) ?_
    (fun a ha op e => hops op (e ▸ ha)) ⟨ht, hdt, hr⟩ h).2.2
  intro a X s X' s' hA hQ hx
  cases a with
  | update =>
    obtain ⟨S1, l, -, e⟩ := act_update hx
    rw [e]; exact hQ
  | set op =>
    obtain ⟨hf, h0⟩ := hA op rfl
    have hw := (act_set hx).1
    obtain ⟨q1, q2, q3⟩ := hQ
    cases op with
    | velocity x => exact absurd trivial hf
    | width x => exact absurd trivial hf
    | depth x => exact absurd trivial hf
    | conc x => exact absurd trivial hf
    | seaLevel x => cases hw; exact ⟨q1, q2, q3⟩
    | slr x => cases hw; exact ⟨q1, q2, q3⟩
    | bedload x =>
      simp only [write] at hw
      split_ifs at hw
      cases hw; exact ⟨q1, q2, q3⟩
    | timeStep x =>
      have hx0 : x ≠ 0 := fun e => h0 (by rw [e])
      cases hw
      refine ⟨q1, hx0, fun c => ?_⟩
      simp only [q1, if_true]
      rw [q3 c, mul_div_assoc, div_self q2, mul_one]

/-- C56 fails: velocity, width, depth and concentration change the time step but not the subsidence
per step, so that wherever the bed subsides, it does not at the given rate any more. -/
theorem C56_sigma_stale {M M' : Live L W m K} {op : SetOp K} (hf : FlowWrite op)
    (h : write M op = .ok M') {rate : Grid L W K} (hr : SigmaOk rate M.P)
    (hdt : readTimeStep M' ≠ readTimeStep M) (c : Cell L W) (hc : rate c ≠ 0) :
    M'.P.sigma c ≠ rate c * readTimeStep M' := by
  obtain ⟨D, -, e⟩ := write_flow hf h
  subst e
  intro heq
  apply hdt
  have h1 : (afterBc M.P (written M.I op) D).sigma c = rate c * M.P.dt := hr c
  rw [h1] at heq
  exact (mul_left_cancel₀ hc heq).symm

/-- C56 fails: writing the time step leaves the coefficient of bed diffusion as it was for the old one. -/
theorem C56_diffusion_stale (M : Live L W m K) (x : K) : ∃ M', write M (.timeStep x) = .ok M' ∧
    M'.P.diffMult = M.P.diffMult ∧ M'.P.VpSed = M.P.VpSed ∧ M'.P.dt = x :=
  ⟨_, rfl, rfl, rfl, rfl⟩

/-! ## Runs with changing boundary conditions -/

/-- Writes that keep the values in their ranges. -/
def GoodWrite (I : Input K) : SetOp K → Prop
  | .velocity x => 0 < x ∧ 981 / 100 * I.S0 * I.dx ≤ x * x
  | .width x => 0 < x
  | .depth x => 0 < x
  | .conc x => 0 < x
  | .seaLevel _ => True
  | .slr _ => True
  | .bedload x => 0 ≤ x ∧ x ≤ 1
  | .timeStep x => 0 < x

/-- What the configuration has that no write changes. -/
def SameRest (I I' : Input K) : Prop :=
  I'.S0 = I.S0 ∧ I'.dx = I.dx ∧ I'.Length = I.Length ∧ I'.Width = I.Width ∧ I'.L0m = I.L0m ∧
  I'.stepmax = I.stepmax

lemma written_rest (I : Input K) (op : SetOp K) : SameRest I (written I op) := by
  cases op <;> exact ⟨rfl, rfl, rfl, rfl, rfl, rfl⟩

lemma written_runnable {I : Input K} (hI : Runnable I) {op : SetOp K} (hop : GoodWrite I op) :
    Runnable (written I op) := by
  have hA := hI.accepted
  have hF := hI.flowing
  cases op with
  | velocity x =>
    exact { hI with
      accepted := { hA with }
      flowing := ⟨hop.1, hF.h0, hF.C0, hF.itermax⟩
      slope1 := hop.2 }
  | width x =>
    exact { hI with accepted := { hA with N0m := hop }, flowing := ⟨hF.u0, hF.h0, hF.C0, hF.itermax⟩ }
  | depth x =>
    exact { hI with accepted := { hA with }, flowing := ⟨hF.u0, hop, hF.C0, hF.itermax⟩ }
  | conc x =>
    have : 0 < x * 100 := mul_pos hop (by norm_num)
    exact { hI with
      accepted := { hA with C0 := this.le }
      flowing := ⟨hF.u0, hF.h0, this, hF.itermax⟩ }
  | seaLevel x => exact hI
  | slr x =>
    exact { hI with accepted := { hA with }, flowing := ⟨hF.u0, hF.h0, hF.C0, hF.itermax⟩ }
  | bedload x =>
    exact { hI with
      accepted := { hA with f0 := hop.1, f1 := hop.2 }
      flowing := ⟨hF.u0, hF.h0, hF.C0, hF.itermax⟩ }
  | timeStep x => exact hI

/-- What every history of good writes and updates keeps. -/
structure Sound [NeZero L] [NeZero W] (M : Live L W m K) : Prop where
  runnable : Runnable M.I
  water : WaterSetup M.P
  sed : SedDomain M.P
  run : RunSetup M.P
  depth : ∀ c, 0 ≤ M.S.depth c
  ncols : 0 < M.S.ncols
  rows : M.P.L0 = max 1 (min (roundHalfEven (M.I.L0m / M.I.dx)) ((L : ℤ) / 4))
  dx : M.P.dx = M.I.dx
  nrm : ∀ x, 0 ≤ x → M.P.nrm x 0 = x

lemma sound_rebound [NeZero L] [NeZero W] {M : Live L W m K} (hs : Sound M) {I : Input K}
    (hI : Runnable I) (hrest : SameRest M.I I) :
    ∃ M', rebound M I = .ok M' ∧ Sound M' := by
  obtain ⟨D, hD, p1, p2, p3, p4, p5, p6, p7, -, -⟩ := C50_derived_partial hI.accepted hI.flowing
    (L : ℤ) (W : ℤ)
  have b := bc_ok hD
  obtain ⟨r1, r2, r3, r4, r5, r6⟩ := hrest
  have hL0 : D.L0 = M.P.L0 := by rw [b.eL0, hs.rows, r5, r2]
  have hstep : 4 ≤ D.stepmax := by
    have h1 := hs.water.hW
    have h2 := hs.water.hL
    have h3 := hs.water.hL0
    cases ht : I.stepmax with
    | none => rw [b.estepNone ht]; omega
    | some x =>
      rw [b.estepSome x ht]
      exact trunc_ge (by norm_num) (by exact_mod_cast hI.steps x ht)
  have hu2 : 0 < I.u0 * I.u0 := mul_pos hI.flowing.u0 hI.flowing.u0
  refine ⟨⟨I, D, afterBc M.P I D, M.S⟩, by unfold rebound; rw [hD], ?_⟩
  have w := hs.water
  have d := hs.sed
  have r := hs.run
  exact {
    runnable := hI
    water := {
      hL0 := by show 2 ≤ D.L0; rw [hL0]; exact w.hL0
      hL := by show D.L0 + 2 ≤ L; rw [hL0]; exact w.hL
      hW := w.hW
      active := w.active
      last := w.last
      land := by intro c hc; exact w.land c (by rw [← hL0]; exact hc)
      nrm := w.nrm
      mod := w.mod
      pw := w.pw
      gamma0 := by
        show 0 ≤ D.gamma
        rw [b.egamma]
        have := hI.slope0
        have := hI.accepted.dx
        positivity
      gamma1 := by
        show D.gamma ≤ 1
        rw [b.egamma, div_le_one hu2]
        exact hI.slope1
      steps := by show 4 ≤ D.stepmax.toNat; omega
      hm := w.hm
      inlet := w.inlet }
    sed := {
      hL := d.hL
      active := d.active
      last := d.last
      below := d.below
      inlet := d.inlet
      hm := d.hm
      steps := by show 1 ≤ D.stepmax.toNat; omega
      s2 := d.s2
      pw := d.pw
      mod := d.mod }
    run := {
      sed := {
        dx := r.sed.dx
        dt := p1
        vp := p3.le
        mod := r.sed.mod
        lam0 := by show 0 ≤ D.lam; rw [b.elam]; exact hI.lag0
        lam1 := by show D.lam ≤ 1; rw [b.elam]; exact hI.lag1
        pwNonneg := r.sed.pwNonneg
        pwPos := r.sed.pwPos
        pwMono := r.sed.pwMono
        eroSand := r.sed.eroSand
        eroMud := r.sed.eroMud
        depMud := r.sed.depMud
        uMax := p5.le
        s2 := r.sed.s2 }
      itermax := r.itermax
      dry := p4.le
      nrm := r.nrm
      nrm0 := by
        show M.P.nrm D.qw0 0 = D.qw0
        rw [b.eqw0]
        exact hs.nrm _ (mul_pos hI.flowing.u0 hI.flowing.h0).le
      h0 := hI.flowing.h0.le }
    depth := hs.depth
    ncols := hs.ncols
    rows := b.eL0
    dx := by show M.P.dx = I.dx; rw [hs.dx, r2]
    nrm := hs.nrm }

lemma sound_write [NeZero L] [NeZero W] {M : Live L W m K} (hs : Sound M) {op : SetOp K}
    (hop : GoodWrite M.I op) : ∃ M', write M op = .ok M' ∧ Sound M' := by
  have hI := written_runnable hs.runnable hop
  have hr := written_rest M.I op
  have w := hs.water
  have d := hs.sed
  have r := hs.run
  cases op with
  | velocity x => exact sound_rebound hs hI hr
  | depth x => exact sound_rebound hs hI hr
  | width x =>
    obtain ⟨M', h1, h2⟩ := sound_rebound hs hI hr
    refine ⟨M', ?_, h2⟩
    simp only [write]
    rw [if_neg (not_le.2 hop)]
    exact h1
  | conc x =>
    obtain ⟨M', h1, h2⟩ := sound_rebound hs hI hr
    refine ⟨M', ?_, h2⟩
    simp only [write]
    have : 0 < x * 100 := mul_pos hop (by norm_num)
    rw [if_neg (not_lt.2 this.le)]
    exact h1
  | seaLevel x => exact ⟨_, rfl, { hs with }⟩
  | slr x =>
    exact ⟨_, rfl, {
      runnable := hI, water := { w with }, sed := { d with }
      run := { r with sed := { r.sed with } }
      depth := hs.depth, ncols := hs.ncols, rows := hs.rows, dx := hs.dx, nrm := hs.nrm }⟩
  | bedload x =>
    refine ⟨_, by simp only [write]; rw [if_neg (by push Not; exact hop)], ?_⟩
    exact {
      runnable := hI, water := { w with }, sed := { d with }
      run := { r with sed := { r.sed with } }
      depth := hs.depth, ncols := hs.ncols, rows := hs.rows, dx := hs.dx, nrm := hs.nrm }
  | timeStep x =>
    exact ⟨_, rfl, {
      runnable := hI, water := { w with }, sed := { d with }
      run := { r with sed := { r.sed with dt := hop } }
      depth := hs.depth, ncols := hs.ncols, rows := hs.rows, dx := hs.dx, nrm := hs.nrm }⟩

lemma sound_update [NeZero L] [NeZero W] {g : Rng K σ} (hg : PositiveDraws g) {M : Live L W m K}
    (hs : Sound M) (s : σ) : ∃ M' s', act g M s .update = .ok (M', s') ∧ Sound M' := by
  obtain ⟨S', l, s', h, hn⟩ := C71_update hg hs.water hs.sed hs.depth hs.ncols s
  refine ⟨{ M with S := S' }, s', by simp only [act]; rw [h], ?_⟩
  refine { hs with depth := fun c => ?_, ncols := hn }
  rw [(C36_update hs.run.h0 h c).1]
  exact le_max_right _ _

lemma act_rest {g : Rng K σ} [NeZero L] [NeZero W] {M M' : Live L W m K} {s s' : σ} {a : Act K}
    (h : act g M s a = .ok (M', s')) : SameRest M.I M'.I := by
  cases a with
  | set op => rw [write_input (act_set h).1]; exact written_rest _ _
  | update =>
    obtain ⟨S1, l, -, e⟩ := act_update h
    rw [e]; exact ⟨rfl, rfl, rfl, rfl, rfl, rfl⟩

lemma sound_session [NeZero L] [NeZero W] {g : Rng K σ} (hg : PositiveDraws g) :
    ∀ {as : List (Act K)} {M : Live L W m K}, Sound M →
      (∀ op, Act.set op ∈ as → GoodWrite M.I op) → ∀ s : σ,
      ∃ M' s', session g as M s = .ok (M', s') ∧ Sound M'
  | [], M, hs, _, s => ⟨M, s, rfl, hs⟩
  | a :: as, M, hs, hops, s => by
    have hstep : ∃ M1 s1, act g M s a = .ok (M1, s1) ∧ Sound M1 := by
      cases a with
      | update => exact sound_update hg hs s
      | set op =>
        obtain ⟨M1, h1, h2⟩ := sound_write hs (hops op List.mem_cons_self)
        exact ⟨M1, s, by simp only [act]; rw [h1], h2⟩
    obtain ⟨M1, s1, h1, h2⟩ := hstep
    obtain ⟨r1, r2, -⟩ := act_rest h1
    have hops' : ∀ op, Act.set op ∈ as → GoodWrite M1.I op := by
      intro op hop
      have := hops op (List.mem_cons_of_mem _ hop)
      cases op with
      | velocity x => exact ⟨this.1, by rw [r1, r2]; exact this.2⟩
      | _ => exact this
    obtain ⟨M', s', h3, h4⟩ := sound_session hg h2 hops' s1
    exact ⟨M', s', by simp only [session, h1]; exact h3, h4⟩

/-- The start of sessions: a created model. -/
lemma sound_created {O : Oracle K} (hO : OracleOk O) {I : Input K} (hI : Runnable I) :
    ∃ (L W m : ℕ) (_ : NeZero L) (_ : NeZero W) (M : Live L W m K), Fresh O M ∧ M.I = I ∧ Sound M := by
  obtain ⟨L, W, m, iL, iW, P, S, hc, hW, hD, -, hR, hd, hn, hsig⟩ := C74_created hO hI
  obtain ⟨M, hM, e1, e2, e3⟩ := fresh_of_create hc
  obtain ⟨-, -, s3, s4⟩ := create_size hc
  have hf : P.L0 = max 1 (min (roundHalfEven (I.L0m / I.dx)) ((L : ℤ) / 4)) ∧ P.dx = I.dx ∧
      P.nrm = O.nrm := by
    simp only at s3
    rw [s3]
    obtain ⟨-, D, hB, -, e⟩ := create_ok hc
    cases e
    exact ⟨(bc_ok hB).eL0, rfl, rfl⟩
  obtain ⟨f1, f2, f3⟩ := hf
  refine ⟨L, W, m, iL, iW, M, hM, e1, ?_⟩
  subst e1 e2 e3
  exact ⟨hI, hW, hD, hR, hd, hn, f1, f2, by rw [f3]; exact hO.nrmAxis⟩

/-- C56, C74: a model can be updated any number of times while its boundary conditions are changed
through the named properties, as long as the values stay in their ranges; no update and no write
fails, whatever random numbers are drawn. After an update the inlet has the depth, the unit discharge
and the direction of flow of the values written last, and no speed exceeds twice the velocity written
last. -/
theorem C56_session {O : Oracle K} (hO : OracleOk O) {I : Input K} (hI : Runnable I) {g : Rng K σ}
    (hg : PositiveDraws g) :
    ∃ (L W m : ℕ) (_ : NeZero L) (_ : NeZero W) (M : Live L W m K), Fresh O M ∧ M.I = I ∧
      ∀ (as : List (Act K)) (s : σ), (∀ op, Act.set op ∈ as → GoodWrite I op) →
        (∃ M' s', session g as M s = .ok (M', s') ∧ ∀ c, 0 ≤ M'.S.depth c) ∧
        ∃ M' s', session g (as ++ [.update]) M s = .ok (M', s') ∧
          ∃ u h : K, u = (lastOf asVelocity as).getD I.u0 ∧ h = (lastOf asDepth as).getD I.h0 ∧
            (∀ c, 0 ≤ M'.S.depth c ∧ 0 ≤ M'.S.uw c ∧ M'.S.uw c ≤ 2 * u) ∧
            ∀ k, M'.S.depth (0, M'.P.inlet k) = h ∧ M'.S.qx (0, M'.P.inlet k) = u * h ∧
              M'.S.qy (0, M'.P.inlet k) = 0 := by
  obtain ⟨L, W, m, iL, iW, M, hM, e1, hs⟩ := sound_created hO hI
  refine ⟨L, W, m, iL, iW, M, hM, e1, fun as s hops => ?_⟩
  rw [← e1] at hops
  obtain ⟨M1, s1, h1, hs1⟩ := sound_session hg hs hops s
  refine ⟨⟨M1, s1, h1, hs1.depth⟩, ?_⟩
  obtain ⟨M2, s2, h2, hs2⟩ := sound_update hg hs1 s1
  obtain ⟨S2, l, h3, e⟩ := act_update h2
  refine ⟨M2, s2, ?_, _, _, rfl, rfl, ?_⟩
  · rw [session_append, h1]
    simp only [session, h2]
  · have hsup := C56_supply hM h1
    obtain ⟨q1, q2, -, -⟩ := C56_read_partial h1
    have hts : timesteps g ([] ++ [M1.P]) M1.S s1 = .ok (S2, [l], s2) := by
      simp only [List.nil_append, timesteps, h3]
    simp only [readVelocity, readDepth] at q1 q2
    rw [e1] at q1 q2
    rw [← q1, ← q2]
    refine ⟨fun c => ⟨hs2.depth c, ?_⟩, fun k => ?_⟩
    · have := C21_run hs1.run hts c
      rw [e, ← hsup.speed]
      exact this
    · have h4 := (C37_run hts k).1
      have h5 := (C20_run hs1.run hts).inlet (0, M1.P.inlet k) ⟨by simp, k, rfl⟩
      rw [e, ← hsup.unit, ← hsup.h0]
      exact ⟨h4, h5.1, h5.2.1⟩

/-! ## Non-trivial cases -/

/-- A history with all kinds of writes. -/
def exActs : List (Act ℚ) :=
  [.update, .set (.velocity 2), .set (.width 300), .set (.depth 4), .update, .set (.conc (1 / 500)),
    .set (.seaLevel 1), .set (.slr (1 / 1000)), .set (.bedload (3 / 10)), .set (.timeStep 1000), .update]

example : ∀ op, Act.set op ∈ exActs → GoodWrite exInput op := by
  intro op hop
  simp only [exActs, List.mem_cons, reduceCtorEq, Act.set.injEq, List.not_mem_nil, or_false,
    false_or] at hop
  rcases hop with rfl | rfl | rfl | rfl | rfl | rfl | rfl | rfl <;>
    simp only [GoodWrite, exInput] <;> norm_num

/-- The default model can be run with these writes, and in it reading the concentration back gives a
different value. -/
example {g : Rng ℚ σ} (hg : PositiveDraws g) (s : σ) :
    ∃ (L W m : ℕ) (_ : NeZero L) (_ : NeZero W) (M : Live L W m ℚ), Fresh exOracle M ∧
      ∃ M' s', session g exActs M s = .ok (M', s') ∧ readConc M' = 1 / 5 := by
  obtain ⟨L, W, m, iL, iW, M, hM, e1, hs⟩ := sound_created exOracleOk exRunnable
  obtain ⟨M', s', h, -⟩ := sound_session hg hs (as := exActs) (by
    rw [e1]
    intro op hop
    simp only [exActs, List.mem_cons, reduceCtorEq, Act.set.injEq, List.not_mem_nil, or_false,
      false_or] at hop
    rcases hop with rfl | rfl | rfl | rfl | rfl | rfl | rfl | rfl <;>
      simp only [GoodWrite, exInput] <;> norm_num) s
  refine ⟨L, W, m, iL, iW, M, hM, M', s', h, ?_⟩
  rw [C56_conc h (1 / 500) rfl]
  norm_num

end Verif.Props
