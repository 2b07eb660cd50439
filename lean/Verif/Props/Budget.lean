import Verif.Spec.Budget
import Verif.Props.Timestep
import Verif.Props.Diffusion

/-!
# C83: the sediment budget of a run
-/

set_option linter.unusedSectionVars false
set_option linter.unusedSimpArgs false

namespace Verif.Props

open Verif.Model Verif.Lemmas Verif.Spec

variable {K : Type*} [Field K] [LinearOrder K] [IsStrictOrderedRing K] {σ : Type*} {L W m : ℕ}

/-- What one pass of diffusion adds to the bed in total (thickness summed over cells): cells exchange with held
neighbours, which do not take part, and lose towards elevation zero at the border. -/
def passGain (ct : Grid L W ℤ) (mult : K) (qs eta : Grid L W K) : K :=
  ∑ c ∈ Finset.univ.filter (fun c => ¬ Held ct c),
    (∑ n ∈ (around c).filter (fun n => Held ct n), mult * ((qs c + qs n) * (eta n - eta c))
      - mult * ((8 - ((around c).card : K)) * (qs c * eta c)))

lemma diffusion_gain (ct : Grid L W ℤ) (mult : K) (qs : Grid L W K) (n : ℕ) (eta : Grid L W K) :
    ∑ c, topoDiffusion ct mult qs n eta c = ∑ c, eta c +
      ∑ i ∈ Finset.range n, passGain ct mult qs (topoDiffusion ct mult qs i eta) := by
  induction n generalizing eta with
  | zero => simp [topoDiffusion]
  | succ n ih =>
    have e : ∀ k, topoDiffusion ct mult qs (k + 1) eta =
        topoDiffusion ct mult qs k (topoDiffusion ct mult qs 1 eta) := fun k => rfl
    have e1 : topoDiffusion ct mult qs 0 eta = eta := rfl
    have e2 : ∑ c, topoDiffusion ct mult qs 1 eta c = ∑ c, eta c + passGain ct mult qs eta := C29_balance ct mult qs eta
    rw [e, ih, e2, Finset.sum_range_succ', e1]
    have e3 : ∀ i ∈ Finset.range n, passGain ct mult qs (topoDiffusion ct mult qs (i + 1) eta) =
        passGain ct mult qs (topoDiffusion ct mult qs i (topoDiffusion ct mult qs 1 eta)) := fun i _ => by rw [e i]
    rw [Finset.sum_congr rfl e3]
    ring

lemma movedTo_sum {P : Params L W m K} (logs : List (SedLog L W K)) (c : Cell L W) :
    (logs.map (fun l => (l.steps.map (fun r => if r.cell = c then r.change / (P.dx * P.dx) else 0)).sum)).sum =
      movedTo logs c / (P.dx * P.dx) := by
  unfold movedTo
  rw [div_eq_mul_inv, ← List.sum_map_mul_right]
  congr 1
  apply List.map_congr_left
  intro l _
  rw [← List.sum_map_mul_right]
  congr 1
  apply List.map_congr_left
  intro r _
  split_ifs
  · rw [div_eq_mul_inv]
  · rw [zero_mul]

/-- The bed after the sand parcels of a timestep. -/
def afterSand (P : Params L W m K) (l : StepLog L W K) : Grid L W K :=
  fun c => l.start.eta c + movedTo l.sand c / (P.dx * P.dx)

section
variable [NeZero L] [NeZero W] [FloorRing K]

lemma routed_bed {g : Rng K σ} {P : Params L W m K} {S S' : State L W K} {s s' : σ} {l : StepLog L W K}
    (h : timestep g P S s = .ok (S', l, s')) (c : Cell L W) :
    l.routed.eta c = topoDiffusion P.cellType P.diffMult l.routed.qs P.Ncross (afterSand P l) c +
      movedTo l.mud c / (P.dx * P.dx) := by
  obtain ⟨s1, h1, h2, h3, -⟩ := timestep_ok h
  obtain ⟨S1, s2, p1, p2⟩ := routeSediment_ok h2
  have hq := C31_mud p2
  have hs : S1.eta = afterSand P l := by
    funext x
    rw [C24_cell p1 x, movedTo_sum]
    unfold afterSand
    rw [h3, ← (routeWater_frame h1).1]
    rfl
  rw [C24_cell p2 c, movedTo_sum, hq, ← hs]

/-- C83: the account of one cell outside of the inlet over a timestep: sand parcels, then diffusion, then mud
parcels, then subsidence, and nothing else. -/
theorem C83_cell {g : Rng K σ} {P : Params L W m K} {S S' : State L W K} {s s' : σ} {l : StepLog L W K}
    (h : timestep g P S s = .ok (S', l, s')) (c : Cell L W) (hc : Outside P.inlet c) :
    S'.eta c = topoDiffusion P.cellType P.diffMult S'.qs P.Ncross
      (fun x => S.eta x + movedTo l.sand x / (P.dx * P.dx)) c + movedTo l.mud c / (P.dx * P.dx) -
        sinks P S.time c := by
  obtain ⟨r, e⟩ := step_result h
  rw [r.bed c hc, routed_bed h, r.flow.2.2.2.2.2.2.1, e]
  unfold afterSand sinks
  rw [e]

end

lemma sum_moved_outside (inlet : Fin m → Fin W) (logs : List (SedLog L W K)) :
    ∑ c : Cell L W with Outside inlet c, movedTo logs c =
      (logs.map fun l => (l.steps.map fun r => r.change).sum).sum - movedToInlet inlet logs := by
  unfold movedTo movedToInlet
  induction logs with
  | nil => simp
  | cons l logs ih =>
    simp only [List.map_cons, List.sum_cons, Finset.sum_add_distrib, ih]
    have : ∑ c : Cell L W with Outside inlet c, (l.steps.map fun r => if r.cell = c then r.change else 0).sum =
        (l.steps.map fun r => r.change).sum -
          (l.steps.map fun r => if Outside inlet r.cell then 0 else r.change).sum := by
      induction l.steps with
      | nil => simp
      | cons r rs ih2 =>
        simp only [List.map_cons, List.sum_cons, Finset.sum_add_distrib, ih2, Finset.sum_ite_eq,
          Finset.mem_filter, Finset.mem_univ, true_and]
        split_ifs <;> ring
    rw [this]
    ring

section
variable [NeZero L] [NeZero W] [FloorRing K]

lemma changes_sum {g : Rng K σ} {k : Sed} {P : Params L W m K} (hdx : P.dx ≠ 0) {S S' : State L W K} {s s' : σ}
    {logs : List (SedLog L W K)} (h : routeParcels g k P S s = .ok (S', logs, s')) :
    (logs.map fun l => (l.steps.map fun r => r.change).sum).sum = P.VpSed * logs.length - carriedOut logs := by
  have hd : P.dx * P.dx ≠ 0 := mul_ne_zero hdx hdx
  have h1 := C24_mass hdx h
  have h2 : (logs.map fun l => (l.steps.map fun r => r.change).sum).sum = bedVolume P.dx S' - bedVolume P.dx S := by
    have e : ∀ c, S'.eta c * (P.dx * P.dx) = S.eta c * (P.dx * P.dx) + movedTo logs c := by
      intro c
      rw [C24_cell h c, movedTo_sum]
      field_simp
    unfold bedVolume
    rw [Finset.sum_congr rfl (fun c _ => e c), Finset.sum_add_distrib, add_sub_cancel_left]
    have all : ∀ logs : List (SedLog L W K), ∑ c : Cell L W, movedTo logs c =
        (logs.map fun l => (l.steps.map fun r => r.change).sum).sum := by
      intro logs
      unfold movedTo
      induction logs with
      | nil => simp
      | cons l logs ih =>
        simp only [List.map_cons, List.sum_cons, Finset.sum_add_distrib, ih]
        congr 1
        induction l.steps with
        | nil => simp
        | cons r rs ih2 => simp only [List.map_cons, List.sum_cons, Finset.sum_add_distrib, ih2,
            Finset.sum_ite_eq, Finset.mem_univ, if_true]
    rw [all]
  rw [h2, h1]
  unfold carriedOut
  clear h1 h2 h
  induction logs with
  | nil => simp
  | cons l logs ih =>
    simp only [List.map_cons, List.sum_cons, ih, List.length_cons]
    push_cast
    ring

/-- What a timestep does to the volume of the bed outside of the inlet: what its parcels brought, less what they
carried out and what they left in the inlet, plus what the passes of diffusion gained, less subsidence. -/
def stepBudget (P : Params L W m K) (l : StepLog L W K) : K :=
  P.VpSed * (l.sand.length + l.mud.length) - carriedOut (l.sand ++ l.mud) - movedToInlet P.inlet (l.sand ++ l.mud)
    + (P.dx * P.dx) * ∑ i ∈ Finset.range P.Ncross, passGain P.cellType P.diffMult l.routed.qs
        (topoDiffusion P.cellType P.diffMult l.routed.qs i (afterSand P l))
    - (P.dx * P.dx) * ∑ c : Cell L W with Outside P.inlet c, sinks P l.start.time c

/-- C83: the budget of a timestep. -/
theorem C83_update {g : Rng K σ} {P : Params L W m K} (hdx : P.dx ≠ 0) {S S' : State L W K} {s s' : σ}
    {l : StepLog L W K} (h : timestep g P S s = .ok (S', l, s')) :
    outsideVolume P.dx P.inlet S' - outsideVolume P.dx P.inlet S = stepBudget P l := by
  have hd : P.dx * P.dx ≠ 0 := mul_ne_zero hdx hdx
  obtain ⟨r, e⟩ := step_result h
  obtain ⟨s1, h1, h2, h3, -⟩ := timestep_ok h
  obtain ⟨S1, s2, p1, p2⟩ := routeSediment_ok h2
  have hc : ∀ c ∈ Finset.univ.filter (fun c : Cell L W => Outside P.inlet c), S'.eta c * (P.dx * P.dx) =
      topoDiffusion P.cellType P.diffMult l.routed.qs P.Ncross (afterSand P l) c * (P.dx * P.dx) +
        movedTo l.mud c - (P.dx * P.dx) * sinks P l.start.time c := by
    intro c hc
    simp only [Finset.mem_filter, Finset.mem_univ, true_and] at hc
    rw [C83_cell h c hc, r.flow.2.2.2.2.2.2.1, ← e]
    show (topoDiffusion P.cellType P.diffMult l.routed.qs P.Ncross (afterSand P l) c + _ - _) * _ = _
    field_simp
  have ht : ∑ c : Cell L W with Outside P.inlet c, topoDiffusion P.cellType P.diffMult l.routed.qs P.Ncross
        (afterSand P l) c = ∑ c : Cell L W with Outside P.inlet c, afterSand P l c +
      ∑ i ∈ Finset.range P.Ncross, passGain P.cellType P.diffMult l.routed.qs
        (topoDiffusion P.cellType P.diffMult l.routed.qs i (afterSand P l)) := by
    have hg := diffusion_gain P.cellType P.diffMult l.routed.qs P.Ncross (afterSand P l)
    rw [← Finset.sum_filter_add_sum_filter_not Finset.univ (fun c : Cell L W => Outside P.inlet c),
      ← Finset.sum_filter_add_sum_filter_not Finset.univ (fun c : Cell L W => Outside P.inlet c)
        (fun c => afterSand P l c)] at hg
    have hi : ∑ c : Cell L W with ¬ Outside P.inlet c, topoDiffusion P.cellType P.diffMult l.routed.qs P.Ncross
        (afterSand P l) c = ∑ c : Cell L W with ¬ Outside P.inlet c, afterSand P l c := by
      apply Finset.sum_congr rfl
      intro c hc
      simp only [Outside, Finset.mem_filter, Finset.mem_univ, true_and, not_not] at hc
      exact C29_held _ _ _ _ _ _ (.inr hc.1)
    rw [hi] at hg
    linarith
  have hs : (P.dx * P.dx) * ∑ c : Cell L W with Outside P.inlet c, afterSand P l c =
      outsideVolume P.dx P.inlet S + ∑ c : Cell L W with Outside P.inlet c, movedTo l.sand c := by
    unfold outsideVolume afterSand
    rw [Finset.mul_sum, ← Finset.sum_add_distrib, e]
    apply Finset.sum_congr rfl
    intro c _
    field_simp
  have hV : outsideVolume P.dx P.inlet S' = (P.dx * P.dx) * ∑ c : Cell L W with Outside P.inlet c,
      topoDiffusion P.cellType P.diffMult l.routed.qs P.Ncross (afterSand P l) c +
      ∑ c : Cell L W with Outside P.inlet c, movedTo l.mud c -
      (P.dx * P.dx) * ∑ c : Cell L W with Outside P.inlet c, sinks P l.start.time c := by
    unfold outsideVolume
    rw [Finset.sum_congr rfl hc, Finset.sum_sub_distrib, Finset.sum_add_distrib, ← Finset.sum_mul, Finset.mul_sum,
      Finset.mul_sum, Finset.sum_mul]
    congr 2
    apply Finset.sum_congr rfl
    intro c _
    ring
  rw [hV, ht, mul_add, hs, sum_moved_outside, sum_moved_outside, changes_sum hdx p1, changes_sum hdx p2]
  unfold stepBudget
  have ca : ∀ a b : List (SedLog L W K), carriedOut (a ++ b) = carriedOut a + carriedOut b := by
    intro a b; unfold carriedOut; rw [List.map_append, List.sum_append]
  have ma : ∀ a b : List (SedLog L W K), movedToInlet P.inlet (a ++ b) =
      movedToInlet P.inlet a + movedToInlet P.inlet b := by
    intro a b; unfold movedToInlet; rw [List.map_append, List.sum_append]
  rw [ca, ma]
  ring

/-- C83: the budget of a whole run, whatever settings change between timesteps. -/
theorem C83_run {g : Rng K σ} {dx : K} (hdx : dx ≠ 0) {inlet : Fin m → Fin W} :
    ∀ {Ps : List (Params L W m K)} {S S' : State L W K} {s s' : σ} {ls : List (StepLog L W K)},
      timesteps g Ps S s = .ok (S', ls, s') → (∀ P ∈ Ps, P.dx = dx ∧ P.inlet = inlet) →
      outsideVolume dx inlet S' - outsideVolume dx inlet S = ((Ps.zip ls).map fun x => stepBudget x.1 x.2).sum := by
  intro Ps
  induction Ps with
  | nil =>
    intro S S' s s' ls h _
    simp only [timesteps, Except.ok.injEq, Prod.mk.injEq] at h
    obtain ⟨rfl, rfl, rfl⟩ := h
    simp
  | cons P Ps ih =>
    intro S S' s s' ls h hP
    obtain ⟨S1, l, s1, ls1, h1, h2, rfl⟩ := timesteps_cons h
    obtain ⟨p1, p2⟩ := hP P List.mem_cons_self
    have hu := C83_update (by rw [p1]; exact hdx) h1
    rw [p1, p2] at hu
    have := ih h2 (fun Q hQ => hP Q (List.mem_cons_of_mem _ hQ))
    simp only [List.zip_cons_cons, List.map_cons, List.sum_cons]
    rw [← this, ← hu]
    ring

/-- C83: without diffusion and subsidence the volume of the bed outside of the inlet grows in a run of `n` timesteps
by exactly the volume of the parcels, less what they carried out and left in the inlet. -/
theorem C83_plain {g : Rng K σ} (hg : ∀ s, 0 ≤ (g.next s).1 ∧ (g.next s).1 ≤ 1) {P : Params L W m K} (hm : 0 < m)
    (hdx : P.dx ≠ 0) (h0 : 0 ≤ P.fBedload) (h1 : P.fBedload ≤ 1)
    (hw : ∃ k : ℕ, (P.NpSed : K) * P.fBedload = k) (hm0 : P.diffMult = 0) (hsub : P.toggleSub = false) (n : ℕ)
    {S S' : State L W K} {s s' : σ} {ls : List (StepLog L W K)}
    (h : timesteps g (List.replicate n P) S s = .ok (S', ls, s')) :
    outsideVolume P.dx P.inlet S' = outsideVolume P.dx P.inlet S + n * (P.NpSed * P.VpSed)
      - (ls.map fun l => carriedOut (l.sand ++ l.mud) + movedToInlet P.inlet (l.sand ++ l.mud)).sum := by
  induction n generalizing S s ls with
  | zero =>
    simp only [List.replicate_zero, timesteps, Except.ok.injEq, Prod.mk.injEq] at h
    obtain ⟨rfl, rfl, rfl⟩ := h
    simp
  | succ n ih =>
    rw [List.replicate_succ] at h
    obtain ⟨S1, l, s1, ls1, a1, a2, rfl⟩ := timesteps_cons h
    have hu := C83_update hdx a1
    obtain ⟨t1, -, q2, -, -⟩ := timestep_ok a1
    have hcount := (C28_routed_partial hg hm h0 h1 hw q2).1
    have hpass : ∀ qs eta : Grid L W K, passGain P.cellType P.diffMult qs eta = 0 := by
      intro qs eta
      unfold passGain
      simp [hm0]
    have hb : stepBudget P l = P.NpSed * P.VpSed - carriedOut (l.sand ++ l.mud) -
        movedToInlet P.inlet (l.sand ++ l.mud) := by
      unfold stepBudget sinks
      simp only [hpass, hsub, Bool.false_eq_true, false_and, if_false, Finset.sum_const_zero, mul_zero]
      have : (l.sand.length : K) + l.mud.length = P.NpSed := by exact_mod_cast hcount
      rw [this]
      ring
    rw [ih a2]
    simp only [List.map_cons, List.sum_cons]
    push_cast
    linarith [hu, hb]

end

-- C83: ten timesteps of the example, with diffusion and subsidence
example : ∃ S' ls s', timesteps constRng (List.replicate 10 exParams) exState () = .ok (S', ls, s') ∧
    outsideVolume exParams.dx exParams.inlet S' - outsideVolume exParams.dx exParams.inlet exState =
      (((List.replicate 10 exParams).zip ls).map fun x => stepBudget x.1 x.2).sum := by
  obtain ⟨S', ls, s', h⟩ := exRun
  refine ⟨S', ls, s', h, C83_run (by norm_num [exParams]) h ?_⟩
  intro P hP
  rw [List.eq_of_mem_replicate hP]
  exact ⟨rfl, rfl⟩

end Verif.Props
