import Verif.Spec.Local
import Verif.Props.Budget
import Verif.Props.SedWalk
import Verif.Props.Run

/-!
# C118: parcels change the bed where they are
-/

set_option linter.unusedSectionVars false
set_option linter.unusedSimpArgs false

namespace Verif.Props

open Verif.Model Verif.Lemmas Verif.Spec

variable {K : Type*} [Field K] [LinearOrder K] [IsStrictOrderedRing K] {σ : Type*} {L W m : ℕ}

lemma moved_unvisited {logs : List (SedLog L W K)} {c : Cell L W} (h : ¬ Visited logs c) : movedTo logs c = 0 := by
  unfold movedTo
  apply List.sum_eq_zero
  intro x hx
  obtain ⟨l, hl, rfl⟩ := List.mem_map.1 hx
  apply List.sum_eq_zero
  intro y hy
  obtain ⟨r, hr, rfl⟩ := List.mem_map.1 hy
  exact if_neg fun hc => h ⟨l, hl, .inr ⟨r, hr, .inr hc⟩⟩

lemma deposited_unvisited {logs : List (SedLog L W K)} {c : Cell L W} (h : ¬ Visited logs c) : deposited logs c = 0 := by
  unfold deposited
  apply List.sum_eq_zero
  intro x hx
  obtain ⟨r, hr, rfl⟩ := List.mem_map.1 hx
  obtain ⟨l, hl, hr⟩ := List.mem_flatMap.1 hr
  exact if_neg fun hc => h ⟨l, hl, .inr ⟨r, hr, .inr hc.1⟩⟩

/-- Diffusion leaves a cell alone that has no sand flux, nor have its neighbours. -/
lemma diffusion_quiet {ct : Grid L W ℤ} {mult : K} {qs : Grid L W K} {c : Cell L W}
    (h : ∀ x, Within 1 c x → qs x = 0) (n : ℕ) (eta : Grid L W K) : topoDiffusion ct mult qs n eta c = eta c := by
  refine diffusion_induct (fun e => e c = eta c) ?_ n eta rfl
  intro e he
  have h0 : qs c = 0 := h c ⟨by simp, by simp⟩
  rw [C29_cell, he, add_eq_left]
  split
  · rfl
  · rw [h0, zero_mul, mul_zero, mul_zero, sub_zero]
    apply Finset.sum_eq_zero
    intro x hx
    have hx' : Adjacent c x := by simpa [around] using hx
    unfold exchange
    rw [h0, h x ⟨hx'.2.1, hx'.2.2⟩]
    simp

section

variable [FloorRing K] [NeZero L] [NeZero W]

/-- No sand flux where no sand parcel was. -/
lemma flux_unvisited {g : Rng K σ} {P : Params L W m K} (hs2 : 0 < P.s2) {S S' : State L W K} {s s' : σ}
    {sand mud : List (SedLog L W K)} (h : routeSediment g P S s = .ok (S', sand, mud, s')) {c : Cell L W}
    (hc : ¬ Visited sand c) : S'.qs c = 0 := by
  rw [C31_sediment_routing hs2 h c]
  apply List.sum_eq_zero
  intro x hx
  obtain ⟨l, hl, rfl⟩ := List.mem_map.1 hx
  rw [if_neg (fun hh => hc ⟨l, hl, .inl ⟨by rw [hh.1]; simp, hh.2⟩⟩), zero_add]
  apply List.sum_eq_zero
  intro y hy
  obtain ⟨r, hr, rfl⟩ := List.mem_map.1 hy
  unfold stepFlux
  rw [if_neg (fun e => hc ⟨l, hl, .inr ⟨r, hr, .inl e⟩⟩), if_neg (fun e => hc ⟨l, hl, .inr ⟨r, hr, .inr e⟩⟩)]
  simp

/-- C118: a cell outside of the inlet that the parcels of an update stay away from keeps its bed but for subsidence and
keeps its active layer. Its surface keeps its sand if it does not subside, and else shows the sand of the active layer,
or of the ground below it if it sinks by more than that. -/
theorem C118_update {g : Rng K σ} {P : Params L W m K} (hs2 : 0 < P.s2) (ht : 0 ≤ P.actThick) {S S' : State L W K}
    {s s' : σ} {l : StepLog L W K} (h : timestep g P S s = .ok (S', l, s')) {c : Cell L W} (hc : Outside P.inlet c)
    (hu : Untouched l c) :
    S'.eta c = S.eta c - sinks P S.time c ∧ S'.activeLayer c = S.activeLayer c ∧
      (sinks P S.time c ≤ 0 → S'.sandFrac c = S.sandFrac c) ∧
      (0 < sinks P S.time c → sinks P S.time c ≤ P.actThick → S'.sandFrac c = S.activeLayer c) ∧
      (P.actThick < sinks P S.time c → S'.sandFrac c = P.sandFracBc) := by
  obtain ⟨u1, u2⟩ := hu
  obtain ⟨r, e⟩ := step_result h
  obtain ⟨s1, h1, h2, h3, -⟩ := timestep_ok h
  have hq : ∀ x, Within 1 c x → S'.qs x = 0 := by
    intro x hx
    rw [r.flow.2.2.2.2.2.2.1]
    exact flux_unvisited hs2 h2 (u1 x hx)
  have hcc : ¬ Visited l.sand c := u1 c ⟨by simp, by simp⟩
  have hb : S'.eta c = S.eta c - sinks P S.time c := by
    rw [C83_cell h c hc, diffusion_quiet hq, moved_unvisited hcc, moved_unvisited u2]
    simp
  have hn : ¬ Deposited l c := by
    unfold Deposited
    rw [deposited_unvisited hcc, deposited_unvisited u2]
    norm_num
  obtain ⟨a1, a2, a3, a4⟩ := (C33_update ht h c).2 hn
  refine ⟨hb, a1, ?_, ?_, ?_⟩
  · intro h'; exact a4 (by rw [hb]; linarith)
  · intro h' h''; exact a3 (by rw [hb]; linarith) (by rw [hb]; linarith)
  · intro h'; exact a2 (by rw [hb]; linarith)

/-- C118 for runs: a cell outside of the inlet that the parcels of all updates stay away from ends with the bed it began
with less its subsidence, with the active layer it began with, and, if it never subsides, with the surface it began with;
whatever the updates did elsewhere, and whatever settings they had. -/
theorem C118_run {g : Rng K σ} {c : Cell L W} : ∀ {Ps : List (Params L W m K)} {S S' : State L W K} {s s' : σ}
    {ls : List (StepLog L W K)}, timesteps g Ps S s = .ok (S', ls, s') →
    (∀ P ∈ Ps, 0 < P.s2 ∧ 0 ≤ P.actThick ∧ Outside P.inlet c) → (∀ l ∈ ls, Untouched l c) →
    S'.eta c = S.eta c - ((Ps.zip ls).map fun x => sinks x.1 x.2.start.time c).sum ∧
      S'.activeLayer c = S.activeLayer c ∧
      ((∀ P ∈ Ps, P.toggleSub = false ∨ P.sigma c ≤ 0) → S'.sandFrac c = S.sandFrac c) := by
  intro Ps
  induction Ps with
  | nil =>
    intro S S' s s' ls h _ _
    simp only [timesteps, Except.ok.injEq, Prod.mk.injEq] at h
    obtain ⟨rfl, rfl, rfl⟩ := h
    simp
  | cons P Ps ih =>
    intro S S' s s' ls h hP hu
    obtain ⟨S1, l, s1, ls1, a1, a2, rfl⟩ := timesteps_cons h
    obtain ⟨p1, p2, p3⟩ := hP P List.mem_cons_self
    obtain ⟨b1, b2, b3, -⟩ := C118_update p1 p2 a1 p3 (hu l List.mem_cons_self)
    obtain ⟨c1, c2, c3⟩ := ih a2 (fun Q hQ => hP Q (List.mem_cons_of_mem _ hQ))
      (fun l' hl => hu l' (List.mem_cons_of_mem _ hl))
    have e : l.start = S := (step_result a1).2
    refine ⟨?_, c2.trans b2, ?_⟩
    · rw [c1, b1, List.zip_cons_cons, List.map_cons, List.sum_cons, e]
      ring
    · intro hs
      rw [c3 fun Q hQ => hs Q (List.mem_cons_of_mem _ hQ)]
      apply b3
      unfold sinks
      split
      · rename_i h'
        rcases hs P List.mem_cons_self with h'' | h''
        · rw [h''] at h'; exact absurd h'.1 (by simp)
        · exact h''
      · exact le_rfl

/-! ## How far parcels come -/

lemma within_step {n : ℕ} {a b c : Cell L W} (h : Within n a b) (hc : Adjacent b c) : Within (n + 1) a c := by
  obtain ⟨h1, h2⟩ := h
  obtain ⟨-, h3, h4⟩ := hc
  rw [abs_le] at h1 h2 h3 h4
  constructor <;> rw [abs_le] <;> push_cast <;> constructor <;> linarith [h1.1, h1.2, h2.1, h2.2, h3.1, h3.2, h4.1, h4.2]

lemma within_mono {n k : ℕ} (h : n ≤ k) {a b : Cell L W} (hw : Within n a b) : Within k a b :=
  ⟨hw.1.trans (by exact_mod_cast h), hw.2.trans (by exact_mod_cast h)⟩

lemma coords_inj {a b : Cell L W} (h : coords a = coords b) : a = b := by
  unfold coords at h
  simp only [Prod.mk.injEq, Nat.cast_inj] at h
  exact Prod.ext (Fin.ext h.1) (Fin.ext h.2)

lemma walk_within : ∀ (rs : List (SedRec L W K)) (a b : Cell L W) (n : ℕ), Within n b a →
    (∀ r, rs.head? = some r → r.old = coords a) → List.IsChain (fun a b => b.old = a.new) rs →
    (∀ r ∈ rs, r.old = coords r.from_ ∧
      ((r.new = coords r.cell ∧ Adjacent r.from_ r.cell) ∨ (r.new.1 = -1 ∧ r.cell.1.val + 1 = L))) →
    ∀ r ∈ rs, Within (n + rs.length) b r.from_ ∧ (Within (n + rs.length) b r.cell ∨ r.cell.1.val + 1 = L) := by
  intro rs
  induction rs with
  | nil => intro a b n _ _ _ _ r hr; cases hr
  | cons q rs ih =>
    intro a b n hab hh hch hmv r hr
    have hq : q.from_ = a := coords_inj ((hmv q List.mem_cons_self).1.symm.trans (hh q rfl))
    rcases List.mem_cons.1 hr with rfl | hr
    · refine ⟨within_mono (by simp) (hq ▸ hab), ?_⟩
      rcases (hmv r List.mem_cons_self).2 with h | h
      · exact .inl (within_mono (by simp) (within_step hab (hq ▸ h.2)))
      · exact .inr h.2
    · rcases (hmv q List.mem_cons_self).2 with h | h
      · have := ih q.cell b (n + 1) (within_step hab (hq ▸ h.2)) ?_ ?_
          (fun r hr => hmv r (List.mem_cons_of_mem _ hr)) r hr
        · have e : n + (q :: rs).length = n + 1 + rs.length := by simp; omega
          rw [e]; exact this
        · intro r' hr'
          rw [← h.1]
          cases rs with
          | nil => cases hr'
          | cons t ts =>
            simp only [List.head?_cons, Option.some.injEq] at hr'
            subst hr'
            exact (List.isChain_cons_cons.1 hch).1
        · cases rs with
          | nil => exact .nil
          | cons t ts => exact (List.isChain_cons_cons.1 hch).2
      · exfalso
        cases rs with
        | nil => cases hr
        | cons t ts =>
          have h1 := (List.isChain_cons_cons.1 hch).1
          have h2 := (hmv t (by simp)).1
          rw [h1] at h2
          have h3 := h.1
          rw [h2] at h3
          unfold coords at h3
          simp only at h3
          omega

lemma sedParcels_starts {g : Rng K σ} {k : Sed} {P : Params L W m K} : ∀ (pys : List ℤ) {st st' : SedSt L W K}
    {s s' : σ} {logs : List (SedLog L W K)}, sedParcels g k P pys st s = .ok (st', logs, s') →
    ∀ l ∈ logs, ∃ py ∈ pys, ∃ c, pyCell L W 0 py = some c ∧ l.start = c.2 ∧
      ∀ r, l.steps.head? = some r → r.old = (0, py) := by
  intro pys
  induction pys with
  | nil =>
    intro st st' s s' logs h l hl
    simp only [sedParcels, Except.ok.injEq, Prod.mk.injEq] at h
    obtain ⟨-, rfl, -⟩ := h
    cases hl
  | cons py pys ih =>
    intro st st' s s' logs h l hl
    unfold sedParcels at h
    split at h
    · cases h
    · rename_i c hc
      split at h
      · cases h
      · rename_i st2 res rs s1 h1
        split at h
        · cases h
        · rename_i st3 logs1 s2 h2
          cases h
          rcases List.mem_cons.1 hl with rfl | hl
          · obtain ⟨-, -, -, -, a5, -⟩ := sedLoop_shape _ _ _ _ _ _ _ _ _ _ h1
            exact ⟨py, List.mem_cons_self, c, hc, rfl, fun r hr => (a5 r hr).1⟩
          · obtain ⟨py', a1, a2⟩ := ih h2 l hl
            exact ⟨py', List.mem_cons_of_mem _ a1, a2⟩

lemma parcels_within {g : Rng K σ} (hg : PositiveDraws g) {k : Sed} {P : Params L W m K}
    (hP : SedDomain P) {S S' : State L W K} (hd : ∀ c, 0 ≤ S.depth c) {s s' : σ}
    {logs : List (SedLog L W K)} (h : routeParcels g k P S s = .ok (S', logs, s')) {c : Cell L W}
    (hc : Visited logs c) : (∃ i, Within P.stepmax (0, P.inlet i) c) ∨ c.1.val + 1 = L := by
  obtain ⟨l, hl, hv⟩ := hc
  obtain ⟨starts, st, q1, q2, -⟩ := routeParcels_ok h
  obtain ⟨starts', q3, -, q4⟩ := starts_exist hg (fun i => ((P.inlet i).val : ℤ)) hP.hm (numStarts k P) s
  rw [q1] at q3
  cases q3
  obtain ⟨py, b1, c0, b2, b3, b4⟩ := sedParcels_starts _ q2 l hl
  obtain ⟨i, rfl⟩ := q4 py b1
  have hc0 : c0 = ((0 : Fin L), P.inlet i) := by
    have := pyCell_self ((0 : Fin L), P.inlet i)
    have h00 : (((0 : Fin L), P.inlet i).1.val : ℤ) = 0 := by simp
    rw [h00, b2] at this
    cases this
    rfl
  subst hc0
  obtain ⟨-, t2, -, -, -, t6⟩ := C27_terminates h l hl
  have hw0 : Within 0 ((0 : Fin L), P.inlet i) (0, P.inlet i) := ⟨by simp, by simp⟩
  rcases hv with ⟨v1, v2⟩ | ⟨r, hr, v⟩
  · refine .inl ⟨i, within_mono (Nat.zero_le _) ?_⟩
    have : c = ((0 : Fin L), P.inlet i) := Prod.ext (Fin.ext (by simp [v1])) (by rw [← v2, b3])
    rw [this]; exact hw0
  · obtain ⟨w1, w2⟩ := walk_within l.steps (0, P.inlet i) (0, P.inlet i) 0 hw0
      (fun r hr => by rw [b4 r hr]; simp [coords]) t6 (fun r hr => by
        obtain ⟨-, d2, ⟨d3, d4, -⟩ | ⟨-, d4, d5, -⟩⟩ := C27_steps hg hP hd h l hl r hr
        · exact ⟨d2, .inl ⟨d3, d4⟩⟩
        · exact ⟨d2, .inr ⟨d4, d5⟩⟩) r hr
    have hle : 0 + l.steps.length ≤ P.stepmax := by omega
    rcases v with rfl | rfl
    · exact .inl ⟨i, within_mono hle w1⟩
    · rcases w2 with w2 | w2
      · exact .inl ⟨i, within_mono hle w2⟩
      · exact .inr w2

/-- C118: parcels stay away from the cells that are farther from the inlet than they take steps; except for the last two
rows, where those come that leave at the inlet. -/
theorem C118_reach {g : Rng K σ} (hg : PositiveDraws g) {P : Params L W m K} (hP : SedDomain P)
    {S S' : State L W K} (hd : ∀ c, 0 ≤ S.depth c) {s s' : σ} {l : StepLog L W K}
    (h : timestep g P S s = .ok (S', l, s')) {c : Cell L W} (hc : Beyond P.stepmax P.inlet c)
    (hl : c.1.val + 2 < L) : Untouched l c := by
  obtain ⟨s1, h1, h2, -, -⟩ := timestep_ok h
  have hd1 := routeWater_depth h1 hd
  obtain ⟨S1, s2, h3, h4⟩ := routeSediment_ok h2
  obtain ⟨S2, lo, s3, h5, h6⟩ := C71_sediment_parcels hg .sand hP (S := initSediment l.watered) hd1 s1
  rw [h3] at h5
  cases h5
  have far : ∀ x : Cell L W, Within 1 c x → ∀ i, ¬ Within P.stepmax (0, P.inlet i) x := by
    intro x ⟨x1, x2⟩ i ⟨y1, y2⟩
    rw [abs_le] at x1 x2 y1 y2
    simp only [Fin.val_zero, Nat.cast_zero, Nat.cast_one] at x1 x2 y1 y2
    rcases hc i with hh | hh
    · obtain ⟨x3, x4⟩ := x1
      obtain ⟨y3, y4⟩ := y1
      simp at y3 y4
      omega
    · rcases lt_abs.1 hh with hh | hh <;> omega
  constructor
  · intro x hx hv
    rcases parcels_within hg hP (S := initSediment l.watered) hd1 h3 hv with ⟨i, hi⟩ | hi
    · exact far x hx i hi
    · have := hx.1
      rw [abs_le] at this
      push_cast at this
      omega
  · intro hv
    rcases parcels_within hg hP (S := { S1 with
        eta := topoDiffusion P.cellType P.diffMult S1.qs P.Ncross S1.eta }) h6 h4 hv with ⟨i, hi⟩ | hi
    · exact far c ⟨by simp, by simp⟩ i hi
    · omega

/-- C118 in runs of any length: the bed of a cell out of reach of the inlet only ever subsides, and its surface keeps
its sand while it does not subside. -/
theorem C118_out_of_reach {g : Rng K σ} (hg : PositiveDraws g) {c : Cell L W} (hl : c.1.val + 2 < L)
    {Ps : List (Params L W m K)}
    (hPs : ∀ P ∈ Ps, SedDomain P ∧ 0 ≤ P.h0 ∧ 0 ≤ P.actThick ∧ Beyond P.stepmax P.inlet c)
    {S S' : State L W K} (hd : ∀ c, 0 ≤ S.depth c) {s s' : σ} {ls : List (StepLog L W K)}
    (h : timesteps g Ps S s = .ok (S', ls, s')) :
    S'.eta c = S.eta c - ((Ps.zip ls).map fun x => sinks x.1 x.2.start.time c).sum ∧
      S'.activeLayer c = S.activeLayer c ∧
      ((∀ P ∈ Ps, P.toggleSub = false ∨ P.sigma c ≤ 0) → S'.sandFrac c = S.sandFrac c) := by
  have hu := (timesteps_inv (g := g) (A := fun P => SedDomain P ∧ 0 ≤ P.h0 ∧ 0 ≤ P.actThick ∧ Beyond P.stepmax P.inlet c)
    (I := fun T => ∀ c, 0 ≤ T.depth c) (J := fun l => Untouched l c) (by
      intro P T s T' l s' ⟨a1, a2, _, a3⟩ hd ht
      exact ⟨fun x => (C36_update a2 ht x).2.1, C118_reach hg a1 hd ht a3 hl⟩) h hPs hd).2
  refine C118_run h (fun P hP => ?_) hu
  obtain ⟨a1, a2, a3, a4⟩ := hPs P hP
  refine ⟨a1.s2, a3, ?_⟩
  rintro ⟨o1, i, o2⟩
  rcases a4 i with hh | hh
  · omega
  · rw [o2] at hh; simp at hh; omega

end

/-! ## Non-trivial cases -/

/-- A channel of nine rows. -/
def longType : Grid 9 3 ℤ := fun c =>
  if c.1.val < 2 then (if c.2.val = 1 then 1 else -2) else if c.2.val = 1 ∧ c.1.val < 8 then 0 else -1

/-- The settings of the example in the long channel, with parcels that take four steps. -/
def exLong : Params 9 3 1 ℚ :=
  { exParams with
    cellType := longType
    inlet := fun _ => 1
    modWater := fun _ => 1
    modSed := fun _ => 1
    modErosion := fun _ => 1
    sigma := fun c => if c.1.val < 2 then 0 else 1 / 100
    stepmax := 4 }

/-- Standing water of depth one. -/
def longState : State 9 3 ℚ :=
  { exState with
    eta := fun _ => -1
    stage := fun _ => 0
    depth := fun _ => 1
    qx := fun _ => 0
    qy := fun _ => 0
    qw := fun _ => 0
    ux := fun _ => 0
    uy := fun _ => 0
    uw := fun _ => 0
    qs := fun _ => 0
    depSand := fun _ => 0
    depMud := fun _ => 0
    sandFrac := fun _ => 0
    activeLayer := fun _ => 0 }

lemma exLongDomain : SedDomain exLong where
  hL := by decide
  active := by
    intro c h
    change longType c ≠ -1 ∧ longType c ≠ -2 at h
    revert c; decide
  last := by intro c h; change longType c = -1; revert c; decide
  below := by
    intro c n h1 h2 h3
    change longType c ≠ -1 ∧ longType c ≠ -2 at h1
    change longType n ≠ -2
    revert c n; decide
  inlet := by intro k; change longType (0, 1) ≠ -1 ∧ longType (0, 1) ≠ -2; decide
  hm := by decide
  steps := by decide
  s2 := exSedDomain.s2
  pw := exSedDomain.pw
  mod := fun _ => by norm_num [exLong]

lemma exLongWater : WaterSetup exLong where
  hL0 := le_refl _
  hL := by change (2 : ℤ) + 2 ≤ (9 : ℕ); norm_num
  hW := le_refl _
  active := by
    intro c h1 h2
    change longType c ≠ -1 at h1
    change longType c ≠ -2 at h2
    revert c; decide
  last := by intro c h; change longType c = -1; revert c; decide
  land := by
    intro c h
    change (2 : ℤ) ≤ c.1.val at h
    change longType c ≠ -2
    revert c; decide
  nrm := exNrm
  mod := fun _ => by norm_num [exLong]
  pw := fun _ h => h
  gamma0 := exSetup.gamma0
  gamma1 := exSetup.gamma1
  steps := by decide
  hm := by decide
  inlet := by intro k; change longType (0, 1) ≠ -1 ∧ longType (0, 1) ≠ -2; decide

lemma longBeyond (j : Fin 3) : Beyond exLong.stepmax exLong.inlet ((6 : Fin 9), j) := by
  intro k
  left
  change ((4 : ℕ) : ℤ) + 1 < ((6 : Fin 9).val : ℤ)
  decide

-- C118: runs of any length in the long channel make the seventh row subside and do nothing else there
example (n : ℕ) (j : Fin 3) : ∃ S' ls s', timesteps constRng (List.replicate n exLong) longState () = .ok (S', ls, s') ∧
    S'.eta (6, j) = -1 - (((List.replicate n exLong).zip ls).map fun x => sinks x.1 x.2.start.time (6, j)).sum := by
  have hall : ∀ P ∈ List.replicate n exLong, WaterSetup P ∧ SedDomain P ∧ 0 ≤ P.h0 := by
    intro P hP
    rw [List.eq_of_mem_replicate hP]
    exact ⟨exLongWater, exLongDomain, by norm_num [exLong, exParams]⟩
  obtain ⟨S', ls, s', h⟩ := C71_run exPositive hall (S := longState) (fun c => by norm_num [longState])
    (by norm_num [longState, exState]) ()
  refine ⟨S', ls, s', h, ?_⟩
  exact (C118_out_of_reach exPositive (c := ((6 : Fin 9), j)) (by change 6 + 2 < 9; norm_num) (fun P hP => by
    rw [List.eq_of_mem_replicate hP]
    exact ⟨exLongDomain, by norm_num [exLong, exParams], by norm_num [exLong, exParams], longBeyond j⟩)
    (fun c => by norm_num [longState]) h).1

-- C118: a parcel in the middle of a domain of five times five cells leaves its border alone, not the cells beside it
example : (∀ c : Cell 5 5, ¬ Within 1 c (2, 2) ↔ c.1 = 0 ∨ c.1 = 4 ∨ c.2 = 0 ∨ c.2 = 4) := by decide

end Verif.Props
