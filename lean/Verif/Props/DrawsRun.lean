import Verif.Props.Draws
import Verif.Props.Timestep

/-!
# C79 for timesteps and runs

How many numbers a timestep draws: all those of the water, then all those of the sand, then all those of the mud. The
generator is not set back, and nothing else draws.
-/

set_option linter.unusedSectionVars false

namespace Verif.Props

open Verif.Model Verif.Lemmas Verif.Spec

variable {K : Type*} [Field K] [LinearOrder K] [IsStrictOrderedRing K] [FloorRing K] {σ : Type*} {L W m : ℕ}
  [NeZero L] [NeZero W]

/-- The water of a timestep draws at least one number for each parcel in each iteration. -/
theorem C79_route_count {g : Rng K σ} {P : Params L W m K} (hP : WaterSetup P) :
    ∀ {n it : ℕ} {S S' : State L W K} (_ : ∀ c, 0 ≤ S.depth c) {s s' : σ}
    (_ : routeWaterFrom g P it n S s = .ok (S', s')),
    (∀ c, 0 ≤ S'.depth c) ∧ ∃ w, n * P.NpWater ≤ w ∧ s' = (fun s => (g.next s).2)^[w] s
  | 0, it, S, S', hd, s, s', h => by
    simp only [routeWaterFrom, Except.ok.injEq, Prod.mk.injEq] at h
    obtain ⟨rfl, rfl⟩ := h
    exact ⟨hd, 0, by simp, rfl⟩
  | n + 1, it, S, S', hd, s, s', h => by
    unfold routeWaterFrom at h
    generalize hx : waterIteration g P it S s = x at h
    match x, h with
    | .ok (S1, s1), h =>
      simp only at h
      obtain ⟨w, starts, log, -, h2, h3⟩ := C79_water_model hP hd hx
      have hd1 : ∀ c, 0 ≤ S1.depth c := by
        obtain ⟨w, wst, log, n, stage, -, -, -, rfl⟩ := waterIteration_ok hx
        exact fun c => le_max_right _ _
      obtain ⟨h4, k, h5, h6⟩ := C79_route_count hP hd1 h
      refine ⟨h4, k + (starts.length + (log.flatten.filter fun r => decide (r.cur ≠ 0)).length), ?_, ?_⟩
      · rw [h2]; ring_nf; ring_nf at h5; omega
      · have h7 := uses_length h3
        rw [List.length_append, List.length_map, List.length_map] at h7
        rw [h6, h7, ← Function.iterate_add_apply]

/-- C79 for a timestep: the numbers it draws are those of the water, at least one for each parcel in each iteration,
and those of the sand and of the mud: for each parcel one for the start and one for each step. -/
theorem C79_timestep {g : Rng K σ} (hg : PositiveDraws g) {P : Params L W m K} (hW : WaterSetup P)
    (hD : SedDomain P) (hs : P.s05 * P.s2 = 1) {S S' : State L W K} (hd : ∀ c, 0 ≤ S.depth c) {s s' : σ}
    {l : StepLog L W K} (h : timestep g P S s = .ok (S', l, s')) :
    ∃ w, P.itermax * P.NpWater ≤ w ∧
      s' = (fun s => (g.next s).2)^[w + (l.sand.length + (l.sand.map (·.steps.length)).sum) +
        (l.mud.length + (l.mud.map (·.steps.length)).sum)] s := by
  obtain ⟨s1, h1, h2, -, -⟩ := timestep_ok h
  obtain ⟨h3, w, h4, h5⟩ := C79_route_count hW hd h1
  have h6 := uses_length (C79_sand_then_mud hg hD hs h3 h2)
  refine ⟨w, h4, ?_⟩
  rw [h6, h5, ← Function.iterate_add_apply]
  simp only [List.length_append, List.length_map, List.length_flatMap]
  exact congrArg (fun n => (fun s => (g.next s).2)^[n] s) (by omega)

/-- C79 for a run: the generator goes on by at least one number for each parcel of water in each iteration of each
timestep. -/
theorem C79_run {g : Rng K σ} (hg : PositiveDraws g) : ∀ {Ps : List (Params L W m K)}
    (_ : ∀ P ∈ Ps, WaterSetup P ∧ SedDomain P ∧ P.s05 * P.s2 = 1 ∧ 0 ≤ P.h0) {S S' : State L W K}
    (_ : ∀ c, 0 ≤ S.depth c) {s s' : σ} {ls : List (StepLog L W K)}
    (_ : timesteps g Ps S s = .ok (S', ls, s')),
    ∃ n, (Ps.map fun P => P.itermax * P.NpWater).sum ≤ n ∧ s' = (fun s => (g.next s).2)^[n] s
  | [], _, S, S', hd, s, s', ls, h => by
    simp only [timesteps, Except.ok.injEq, Prod.mk.injEq] at h
    obtain ⟨rfl, -, rfl⟩ := h
    exact ⟨0, by simp, rfl⟩
  | P :: Ps, hPs, S, S', hd, s, s', ls, h => by
    obtain ⟨hW, hD, hs, h0⟩ := hPs P List.mem_cons_self
    unfold timesteps at h
    generalize hx : timestep g P S s = x at h
    match x, h with
    | .ok (S1, l, s1), h =>
      simp only at h
      generalize hy : timesteps g Ps S1 s1 = y at h
      match y, h with
      | .ok (S2, ls', s2), h =>
        simp only [Except.ok.injEq, Prod.mk.injEq] at h
        obtain ⟨rfl, -, rfl⟩ := h
        obtain ⟨w, h1, h2⟩ := C79_timestep hg hW hD hs hd hx
        obtain ⟨n, h3, h4⟩ := C79_run hg (fun Q hQ => hPs Q (List.mem_cons_of_mem _ hQ))
          (fun c => (C36_update h0 hx c).2.1) hy
        refine ⟨n + _, ?_, by rw [h4, h2, ← Function.iterate_add_apply]⟩
        simp only [List.map_cons, List.sum_cons]
        omega

/-- Two timesteps of the example: two iterations with the water parcels of the example in each. -/
example : ∃ S' ls s', timesteps constRng [exRule, exRule] exState () = .ok (S', ls, s') ∧
    0 < exRule.itermax * exRule.NpWater := by
  obtain ⟨S', ls, s', h⟩ := C71_run exPositive (Ps := [exRule, exRule]) (by
    intro P hP
    obtain rfl : P = exRule := by simpa using hP
    exact ⟨exRuleSetup, exRuleDomain, by norm_num [exRule, exParams]⟩) (S := exState)
    (fun c => by norm_num [exState]) (by norm_num [exState]) ()
  exact ⟨S', ls, s', h, by decide⟩

end Verif.Props
