import Verif.Model.Process
import Verif.Props.Created

/-!
# C85: a run can be repeated from its seed
-/

set_option linter.unusedSectionVars false

namespace Verif.Props

open Verif.Model Verif.Lemmas Verif.Spec

variable {K : Type*} [Field K] [LinearOrder K] [IsStrictOrderedRing K] [FloorRing K] {σ ν : Type*}

/-- A model updated `k` times from a state of the generator, with nothing else going on; an update that fails is
without effect. -/
def alone (g : Rng K σ) (B : Built K) (s : σ) : ℕ → Built K × σ
  | 0 => (B, s)
  | k + 1 =>
    match updateBuilt g (alone g B s k).1 (alone g B s k).2 with
    | .error _ => alone g B s k
    | .ok r => r

/-- The number of updates of the `i`-th model. -/
def updatesOf (i : ℕ) (as : List (HostAct K σ ν)) : ℕ :=
  as.countP fun a => match a with
    | .update j => i == j
    | _ => false

/-- Nothing but updates of the `i`-th model and uses of the generator of `numpy`. -/
def OnlyModel (i : ℕ) (a : HostAct K σ ν) : Prop := a = .update i ∨ ∃ f, a = .numpy f

lemma only_run {O : Oracle K} {G : Gens K σ ν} {i : ℕ} {B : Built K} {s : σ} {n m : ℕ} :
    ∀ (as : List (HostAct K σ ν)) (p : Proc K σ ν) (k : ℕ), (∀ a ∈ as, OnlyModel i a) →
      p.models[i]? = some ⟨(alone G.draw B s k).1, n, m⟩ → p.nb = (alone G.draw B s k).2 →
      (procActs O G p as).models[i]? = some ⟨(alone G.draw B s (k + updatesOf i as)).1, n, m⟩ ∧
      (procActs O G p as).nb = (alone G.draw B s (k + updatesOf i as)).2
  | [], p, k, _, h1, h2 => ⟨h1, h2⟩
  | a :: as, p, k, ha, h1, h2 => by
    have hstep : ∃ k', (procAct O G p a).models[i]? = some ⟨(alone G.draw B s k').1, n, m⟩ ∧
        (procAct O G p a).nb = (alone G.draw B s k').2 ∧ k' + updatesOf i as = k + updatesOf i (a :: as) := by
      rcases ha a List.mem_cons_self with rfl | ⟨f, rfl⟩
      · refine ⟨k + 1, ?_⟩
        have hc : k + 1 + updatesOf i as = k + updatesOf i (.update i :: as) := by
          simp only [updatesOf, List.countP_cons, beq_self_eq_true, if_true]; omega
        simp only [procAct, h1, h2, alone]
        cases updateBuilt G.draw (alone G.draw B s k).1 (alone G.draw B s k).2 with
        | error e => exact ⟨h1, h2, hc⟩
        | ok r =>
          have hi : i < p.models.length := by
            by_contra hn
            rw [List.getElem?_eq_none (by omega)] at h1
            cases h1
          refine ⟨?_, rfl, hc⟩
          simp only
          rw [List.getElem?_set_self hi]
      · exact ⟨k, h1, h2, by simp [updatesOf]⟩
    obtain ⟨k', h3, h4, h5⟩ := hstep
    have := only_run (O := O) as (procAct O G p a) k' (fun b hb => ha b (List.mem_cons_of_mem _ hb)) h3 h4
    rw [h5] at this
    exact this

/-- C85: whatever was done in the process before, a new model has the seed that it was given or that was drawn, its
log has the same seed, and if then nothing but this model uses the package, its fields after any number of updates are
those of a model that starts from this seed alone, no matter how the generator of `numpy` is used in between. -/
theorem C85_alone {O : Oracle K} {G : Gens K σ ν} {I : Input K} {B : Built K} (hB : create O I = .ok B)
    (p : Proc K σ ν) (seed : Option ℕ) (as : List (HostAct K σ ν)) (ha : ∀ a ∈ as, OnlyModel p.models.length a) :
    ∃ h, (procActs O G p (.make I seed :: as)).models[p.models.length]? = some h ∧ h.logged = h.seed ∧
      (∀ n, seed = some n → h.seed = n) ∧ (seed = none → h.seed = (G.randint p.np).1) ∧
      h.B = (alone G.draw B (G.seeded h.logged) (updatesOf p.models.length as)).1 := by
  have hv := (C50_validate I).2 (create_ok hB).1
  have h0 : procAct O G p (.make I seed) =
      ⟨(determineSeed G p.np seed).2, G.seeded (determineSeed G p.np seed).1,
        p.models ++ [⟨B, (determineSeed G p.np seed).1, (determineSeed G p.np seed).1⟩]⟩ := by
    simp only [procAct, hv, hB]
  have h1 := (only_run (O := O) (G := G) (B := B) (s := G.seeded (determineSeed G p.np seed).1)
    (n := (determineSeed G p.np seed).1) (m := (determineSeed G p.np seed).1) as (procAct O G p (.make I seed)) 0 ha
    (by rw [h0]; simp [alone]) (by rw [h0]; rfl)).1
  refine ⟨_, h1, rfl, ?_, ?_, ?_⟩
  · rintro n rfl; rfl
  · rintro rfl; rfl
  · rw [Nat.zero_add]

/-- C85: a run can be repeated, in any other process, with the seed found in its log: after the same number of updates
the model is the same in all fields. -/
theorem C85_repeat {O : Oracle K} {G : Gens K σ ν} {I : Input K} {B : Built K} (hB : create O I = .ok B)
    (p q : Proc K σ ν) (seed : Option ℕ) {as bs : List (HostAct K σ ν)}
    (ha : ∀ a ∈ as, OnlyModel p.models.length a) (hb : ∀ b ∈ bs, OnlyModel q.models.length b)
    (hk : updatesOf p.models.length as = updatesOf q.models.length bs) :
    ∃ h h', (procActs O G p (.make I seed :: as)).models[p.models.length]? = some h ∧
      (procActs O G q (.make I (some h.logged) :: bs)).models[q.models.length]? = some h' ∧ h'.B = h.B := by
  obtain ⟨h, h1, -, -, -, h2⟩ := C85_alone (G := G) hB p seed as ha
  obtain ⟨h', h3, h4, h5, -, h6⟩ := C85_alone (G := G) hB q (some h.logged) bs hb
  refine ⟨h, h', h1, h3, ?_⟩
  rw [h2, h6, h4, h5 _ rfl, hk]

/-- Actions that draw a seed or use `numpy`. -/
def onNumpy (G : Gens K σ ν) (np : ν) : HostAct K σ ν → ν
  | .make I none => match validate I with
    | .error _ => np
    | .ok _ => (G.randint np).2
  | .numpy f => f np
  | _ => np

/-- C85: which seeds are drawn for models without one does not depend on models with a seed, on updates or on the
numbers that models draw. -/
theorem C85_seeds {O : Oracle K} {G : Gens K σ ν} : ∀ (as : List (HostAct K σ ν)) (p : Proc K σ ν),
    (procActs O G p as).np = as.foldl (onNumpy G) p.np
  | [], p => rfl
  | a :: as, p => by
    have h : (procAct O G p a).np = onNumpy G p.np a := by
      cases a with
      | make I seed =>
        simp only [procAct]
        cases hv : validate I with
        | error e => cases seed <;> simp only [onNumpy, hv]
        | ok u =>
          simp only
          cases create O I <;> cases seed <;> simp only [onNumpy, hv, determineSeed]
      | update i =>
        simp only [procAct, onNumpy]
        split
        · rfl
        · split <;> rfl
      | numpy f => rfl
      | numba f => rfl
    show (procActs O G (procAct O G p a) as).np = _
    rw [C85_seeds as, h]
    rfl

/-- C85 needs that nothing else uses the package: if another model is made between two updates, the next update uses
the random numbers of the seed of that other model, whatever seed the model has and whatever numbers it used so far. -/
theorem C85_shared {O : Oracle K} {G : Gens K σ ν} {J : Input K} {C : Built K} (hJ : create O J = .ok C) (n : ℕ)
    {p : Proc K σ ν} {i : ℕ} {h : Hosted K} (hi : p.models[i]? = some h) {B : Built K} {s : σ}
    (hu : updateBuilt G.draw h.B (G.seeded n) = .ok (B, s)) :
    (procActs O G p [.make J (some n), .update i]).models[i]? = some { h with B := B } := by
  have hv := (C50_validate J).2 (create_ok hJ).1
  have hlt : i < p.models.length := by
    by_contra hn
    rw [List.getElem?_eq_none (by omega)] at hi
    cases hi
  have hi' : (p.models ++ [(⟨C, n, n⟩ : Hosted K)])[i]? = some h := by
    rw [List.getElem?_append_left hlt, hi]
  simp only [procActs, List.foldl_cons, List.foldl_nil, procAct, hv, hJ, determineSeed, hi', hu]
  rw [List.getElem?_set_self (by simp; omega)]

/-- The default model. -/
example : ∃ B, create exOracle exInput = .ok B := by
  obtain ⟨L, W, m, iL, iW, P, S, h, -⟩ := C74_created exOracleOk exRunnable
  exact ⟨_, h⟩

/-- Two updates with draws from `numpy` in between. -/
example (f : ν → ν) : ∀ a ∈ ([.update 3, .numpy f, .update 3] : List (HostAct ℚ σ ν)), OnlyModel 3 a := by
  intro a ha
  simp only [List.mem_cons, List.not_mem_nil, or_false] at ha
  rcases ha with rfl | rfl | rfl
  · exact .inl rfl
  · exact .inr ⟨f, rfl⟩
  · exact .inl rfl

end Verif.Props
