import Verif.Model.WaterIteration
import Verif.Lemmas.WaterWalk

/-!
# Lemmas about whole water iterations
-/

set_option linter.unusedSectionVars false

namespace Verif.Lemmas

open Verif.Model

variable {K : Type*} [Field K] [LinearOrder K] [FloorRing K] {σ : Type*} {L W m : ℕ}
  [NeZero L] [NeZero W]

/-- What a successful water iteration consists of. -/
lemma waterIteration_ok {g : Rng K σ} {P : Params L W m K} {it : ℕ} {S S' : State L W K} {s s' : σ}
    (h : waterIteration g P it S s = .ok (S', s')) :
    ∃ w wst log n stage, waterWeightArray P S = .ok w ∧
      runWaterIteration g (waterEnv P S w) (fun k => ((P.inlet k).val : ℤ)) P.NpWater S.ncols s =
        .ok (wst, log, n, s') ∧
      computeFreeSurface P S wst.parcels = .ok stage ∧
      S' = { finalizeWaterIteration P S it stage wst.flux with ncols := wst.ncols } := by
  unfold waterIteration at h
  cases hw : waterWeightArray P S with
  | error e => rw [hw] at h; simp at h
  | ok w =>
    rw [hw] at h
    simp only at h
    cases hr : runWaterIteration g (waterEnv P S w) (fun k => ((P.inlet k).val : ℤ)) P.NpWater
        S.ncols s with
    | error e => rw [hr] at h; simp at h
    | ok r =>
      obtain ⟨wst, log, n, s1⟩ := r
      rw [hr] at h
      simp only at h
      cases hf : computeFreeSurface P S wst.parcels with
      | error e => rw [hf] at h; simp at h
      | ok stage =>
        rw [hf] at h
        simp only [Except.ok.injEq, Prod.mk.injEq] at h
        obtain ⟨h1, rfl⟩ := h
        exact ⟨w, wst, log, n, stage, rfl, hr, hf, h1.symm⟩

/-- An invariant of the iterations holds after the loop. -/
lemma routeWaterFrom_inv {g : Rng K σ} {P : Params L W m K} (I : State L W K → Prop)
    (hstep : ∀ it S s S' s', I S → waterIteration g P it S s = .ok (S', s') → I S') :
    ∀ n it S s S' s', I S → routeWaterFrom g P it n S s = .ok (S', s') → I S' := by
  intro n
  induction n with
  | zero =>
    intro it S s S' s' hI h
    simp only [routeWaterFrom, Except.ok.injEq, Prod.mk.injEq] at h
    exact h.1 ▸ hI
  | succ n ih =>
    intro it S s S' s' hI h
    unfold routeWaterFrom at h
    generalize hr : waterIteration g P it S s = r at h
    cases r with
    | error e => simp at h
    | ok r =>
      obtain ⟨S1, s1⟩ := r
      exact ih _ _ _ _ _ (hstep _ _ _ _ _ hI hr) h

/-- What holds after every iteration holds after the loop, if it runs at least once. -/
lemma routeWaterFrom_post {g : Rng K σ} {P : Params L W m K} (Q : State L W K → Prop)
    (hstep : ∀ it S s S' s', waterIteration g P it S s = .ok (S', s') → Q S') :
    ∀ n it S s S' s', 0 < n → routeWaterFrom g P it n S s = .ok (S', s') → Q S' := by
  intro n it S s S' s' hn h
  cases n with
  | zero => omega
  | succ n =>
    unfold routeWaterFrom at h
    generalize hr : waterIteration g P it S s = r at h
    cases r with
    | error e => simp at h
    | ok r =>
      obtain ⟨S1, s1⟩ := r
      exact routeWaterFrom_inv Q (fun it S s S' s' _ h => hstep it S s S' s' h) _ _ _ _ _ _
        (hstep _ _ _ _ _ hr) h

/-- What the loop over the iterations leaves alone. -/
lemma waterIteration_frame {g : Rng K σ} {P : Params L W m K} {it : ℕ} {S S' : State L W K} {s s' : σ}
    (h : waterIteration g P it S s = .ok (S', s')) :
    S'.eta = S.eta ∧ S'.HSL = S.HSL ∧ S'.time = S.time ∧ S'.timeIter = S.timeIter ∧
      S'.qs = S.qs ∧ S'.depSand = S.depSand ∧ S'.depMud = S.depMud ∧ S'.sandFrac = S.sandFrac ∧
      S'.activeLayer = S.activeLayer := by
  obtain ⟨w, wst, log, n, stage, -, -, -, rfl⟩ := waterIteration_ok h
  exact ⟨rfl, rfl, rfl, rfl, rfl, rfl, rfl, rfl, rfl⟩

lemma routeWater_frame {g : Rng K σ} {P : Params L W m K} {S S' : State L W K} {s s' : σ}
    (h : routeWater g P S s = .ok (S', s')) :
    S'.eta = S.eta ∧ S'.HSL = S.HSL ∧ S'.time = S.time ∧ S'.timeIter = S.timeIter ∧
      S'.qs = S.qs ∧ S'.depSand = S.depSand ∧ S'.depMud = S.depMud ∧ S'.sandFrac = S.sandFrac ∧
      S'.activeLayer = S.activeLayer := by
  refine routeWaterFrom_inv (I := fun T => T.eta = S.eta ∧ T.HSL = S.HSL ∧ T.time = S.time ∧
      T.timeIter = S.timeIter ∧ T.qs = S.qs ∧ T.depSand = S.depSand ∧ T.depMud = S.depMud ∧
      T.sandFrac = S.sandFrac ∧ T.activeLayer = S.activeLayer) ?_ _ _ _ _ _ _
      ⟨rfl, rfl, rfl, rfl, rfl, rfl, rfl, rfl, rfl⟩ h
  intro it T t T' t' ⟨h1, h2, h3, h4, h5, h6, h7, h8, h9⟩ hT
  obtain ⟨a1, a2, a3, a4, a5, a6, a7, a8, a9⟩ := waterIteration_frame hT
  exact ⟨a1.trans h1, a2.trans h2, a3.trans h3, a4.trans h4, a5.trans h5, a6.trans h6, a7.trans h7,
    a8.trans h8, a9.trans h9⟩

end Verif.Lemmas
