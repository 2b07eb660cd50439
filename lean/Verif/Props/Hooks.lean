import Verif.Spec.Hooks

/-!
# C47: hooks run immediately before the step they are named after
-/

namespace Verif.Props

open Verif.Model Verif.Spec

instance (s : Step) : Decidable (HasAfter s) := by unfold HasAfter; infer_instance

/-- `Fits` by cases, for evaluation. -/
def fitsB : Ev → Ev → Bool
  | .hook s, .enter t => decide (s = t)
  | .hook _, _ => false
  | _, .enter _ => false
  | .exit s, .hookAfter t => decide (s = t)
  | .exit s, _ => !decide (HasAfter s)
  | _, .hookAfter _ => false
  | _, _ => true

lemma fits_of {a b : Ev} (h : fitsB a b = true) : Fits a b := by
  cases a <;> cases b <;> simp only [fitsB, Bool.false_eq_true, decide_eq_true_eq, Bool.not_eq_true',
    decide_eq_false_iff_not] at h <;>
    refine ⟨?_, ?_, ?_, ?_⟩ <;> intro s <;> simp_all <;> intro h1 h2 <;> simp_all

lemma inPlace_append {l l' : List Ev} (h : HooksInPlace l) (h' : HooksInPlace l') :
    HooksInPlace (l ++ l') := by
  by_cases hl : l = []
  · subst hl; exact h'
  by_cases hl' : l' = []
  · subst hl'; rw [List.append_nil]; exact h
  obtain ⟨f1, n1, e1⟩ := h
  obtain ⟨f2, n2, e2⟩ := h'
  refine ⟨?_, ?_, ?_⟩
  · intro s
    rw [List.head?_append_of_ne_nil _ hl]
    exact f1 s
  · rw [List.isChain_append]
    refine ⟨n1, n2, ?_⟩
    intro a ha b hb
    refine ⟨?_, ?_, ?_, ?_⟩
    · rintro s rfl; exact absurd hb (f2 s).1
    · rintro s rfl; exact absurd ha (e1 s).1
    · rintro s rfl; exact absurd hb (f2 s).2
    · rintro s hs rfl; exact absurd ha ((e1 s).2 hs)
  · intro s
    rw [List.getLast?_append_of_ne_nil _ hl']
    exact e2 s

lemma inPlace_nil : HooksInPlace [] := ⟨fun s => by simp, by simp, fun s => by simp⟩

lemma inPlace_flatMap {α : Type*} {f : α → List Ev} {l : List α} (h : ∀ a ∈ l, HooksInPlace (f a)) :
    HooksInPlace (l.flatMap f) := by
  induction l with
  | nil => exact inPlace_nil
  | cons a l ih =>
    rw [List.flatMap_cons]
    exact inPlace_append (h a List.mem_cons_self) (ih fun b hb => h b (List.mem_cons_of_mem _ hb))

/-- `HooksInPlace` by evaluation. -/
def inPlaceB (l : List Ev) : Bool :=
  (match l.head? with | some (.enter _) => false | some (.hookAfter _) => false | _ => true) &&
  (match l with | [] => true | a :: l => (List.zipWith fitsB (a :: l) l).all id) &&
  (match l.getLast? with | some (.hook _) => false | some (.exit s) => !decide (HasAfter s) | _ => true)

lemma chain_of : ∀ {l : List Ev} {a : Ev}, (List.zipWith fitsB (a :: l) l).all id = true →
    (a :: l).IsChain Fits
  | [], a, _ => by simp
  | b :: l, a, h => by
    simp only [List.zipWith_cons_cons, List.all_cons, Bool.and_eq_true, id] at h
    rw [List.isChain_cons_cons]
    exact ⟨fits_of h.1, chain_of h.2⟩

lemma inPlace_of {l : List Ev} (h : inPlaceB l = true) : HooksInPlace l := by
  unfold inPlaceB at h
  simp only [Bool.and_eq_true] at h
  obtain ⟨⟨h1, h2⟩, h3⟩ := h
  refine ⟨fun s => ⟨?_, ?_⟩, ?_, fun s => ⟨?_, ?_⟩⟩
  · intro h; simp [h] at h1
  · intro h; simp [h] at h1
  · cases l with
    | nil => simp
    | cons a l => exact chain_of h2
  · intro h; simp [h] at h3
  · intro hs h; simp [h, hs] at h3

lemma inPlace_water (i : ℕ) : HooksInPlace (waterIterationEvents i) := by
  refine inPlace_of ?_
  simp [inPlaceB, waterIterationEvents, fitsB, HasAfter]

/-- C47: in an update, for any number of water iterations, every step is entered right after its hook,
every hook is followed by its step, and the hooks named after the end of a step are called right at its
end; no hook is called anywhere else. -/
theorem C47_update (itermax : ℕ) : HooksInPlace (updateEvents itermax) := by
  unfold updateEvents solveEvents routeWaterEvents
  rw [show [Ev.hook .solveWaterAndSediment, .enter .solveWaterAndSediment] ++
    ([.hook .routeWater, .enter .routeWater] ++ (List.range itermax).flatMap waterIterationEvents ++
      [.exit .routeWater, .hookAfter .routeWater, .hook .routeSediment, .enter .routeSediment] ++
      routeSedimentEvents ++ [.exit .routeSediment, .hookAfter .routeSediment]) =
    [Ev.hook .solveWaterAndSediment, .enter .solveWaterAndSediment,
      .hook .routeWater, .enter .routeWater] ++
      ((List.range itermax).flatMap waterIterationEvents ++
      ([.exit .routeWater, .hookAfter .routeWater, .hook .routeSediment, .enter .routeSediment] ++
      routeSedimentEvents ++ [.exit .routeSediment, .hookAfter .routeSediment])) from by
        simp [List.append_assoc]]
  simp only [List.append_assoc]
  refine inPlace_append (inPlace_of (by decide)) (inPlace_append
    (inPlace_flatMap fun i _ => inPlace_water i) (inPlace_of (by decide)))

/-- C47: in the life of a model, with any number of updates, made new or resumed. -/
theorem C47_life (resume newFile : Bool) (iters : List ℕ) :
    HooksInPlace (lifeEvents resume newFile iters) := by
  refine inPlace_append (inPlace_of ?_) (inPlace_flatMap fun n _ => C47_update n)
  revert resume newFile
  decide

/-- C47: every hook is called as often as its step, in the same order. -/
theorem C47_count {l : List Ev} (h : HooksInPlace l) : hooked l = entered l := by
  obtain ⟨f, n, e⟩ := h
  suffices hs : ∀ (l : List Ev), l.IsChain Fits → (∀ s, l.getLast? ≠ some (.hook s)) →
      hooked l = (match l.head? with
        | some (.enter _) => (entered l).tail
        | _ => entered l) ∧ (∀ s, l.head? = some (.enter s) → (entered l).head? = some s) by
    have h1 := (hs l n fun s => (e s).1).1
    rw [h1]
    split
    · next s hs => exact absurd hs (f s).1
    · rfl
  intro l
  induction l with
  | nil => intro _ _; simp [hooked, entered]
  | cons a l ih =>
    intro hc hl
    have hc' := hc.tail
    have hl' : ∀ s, l.getLast? ≠ some (.hook s) := by
      intro s hs
      refine hl s ?_
      rw [List.getLast?_cons, hs]
      rfl
    obtain ⟨ih1, ih2⟩ := ih hc' hl'
    have hhead : ∀ b, l.head? = some b → Fits a b := by
      intro b hb
      cases l with
      | nil => simp at hb
      | cons c l =>
        simp only [List.head?_cons, Option.some.injEq] at hb
        subst hb
        exact (List.isChain_cons_cons.1 hc).1
    have hno : (∀ s, a ≠ .hook s) → ∀ s, l.head? ≠ some (.enter s) := by
      intro ha s hs
      exact ha s ((hhead _ hs).enter s rfl)
    have ih3 : (∀ s, a ≠ .hook s) → hooked l = entered l := by
      intro ha
      rw [ih1]
      split
      · next s hs => exact absurd hs (hno ha s)
      · rfl
    cases a with
    | hook s =>
      have hl2 : l.head? = some (.enter s) := by
        cases l with
        | nil => exact absurd rfl (hl s)
        | cons c l =>
          have := (hhead c rfl).hook s rfl
          rw [this]; rfl
      have e1 : hooked (.hook s :: l) = s :: hooked l := rfl
      have e2 : entered (.hook s :: l) = entered l := rfl
      refine ⟨?_, by simp⟩
      simp only [List.head?_cons]
      rw [e1, e2, ih1, hl2]
      have := ih2 s hl2
      cases hE : entered l with
      | nil => simp [hE] at this
      | cons t r =>
        simp only [hE, List.head?_cons, Option.some.injEq] at this
        subst this
        rfl
    | enter s =>
      have e1 : hooked (.enter s :: l) = hooked l := rfl
      have e2 : entered (.enter s :: l) = s :: entered l := rfl
      refine ⟨?_, fun t ht => ?_⟩
      · simp only [List.head?_cons]
        rw [e1, e2, ih3 (by simp)]
        rfl
      · simp only [List.head?_cons, Option.some.injEq, Ev.enter.injEq] at ht
        rw [e2, ht]
        rfl
    | hookAfter s => exact ⟨ih3 (by simp), by simp⟩
    | exit s => exact ⟨ih3 (by simp), by simp⟩

lemma entered_append (l l' : List Ev) : entered (l ++ l') = entered l ++ entered l' :=
  List.filterMap_append

/-- C47: the steps of an update are called in the documented order. -/
theorem C47_order (itermax : ℕ) : entered (updateEvents itermax) = documented itermax := by
  have hw : entered (routeWaterEvents itermax) = ((List.range itermax).map fun i =>
      [Step.initWaterIteration, .runWaterIteration, .computeFreeSurface,
        .finalizeWaterIteration i]).flatten := by
    unfold routeWaterEvents
    induction List.range itermax with
    | nil => rfl
    | cons i l ih =>
      rw [List.flatMap_cons, entered_append, ih]
      rfl
  unfold updateEvents solveEvents
  simp only [entered_append]
  rw [hw]
  simp [entered, documented, routeSedimentEvents, finalizeTimestepEvents]

lemma openAfter_append (l l' : List Ev) (st : List Step) :
    openAfter (l ++ l') st = (openAfter l st).bind (openAfter l') := by
  induction l generalizing st with
  | nil => rfl
  | cons a l ih =>
    cases a with
    | hook s => exact ih st
    | hookAfter s => exact ih st
    | enter s => exact ih (s :: st)
    | exit s =>
      cases st with
      | nil => rfl
      | cons t st =>
        simp only [List.cons_append, openAfter]
        split_ifs
        · exact ih st
        · rfl

/-- C47: the steps are nested: every step called in an update ends before the one that called it. -/
theorem C47_nested (itermax : ℕ) (st : List Step) :
    openAfter (updateEvents itermax) st = some st := by
  have hw : ∀ st, openAfter (routeWaterEvents itermax) st = some st := by
    unfold routeWaterEvents
    induction List.range itermax with
    | nil => intro st; rfl
    | cons i l ih =>
      intro st
      rw [List.flatMap_cons, openAfter_append]
      have : openAfter (waterIterationEvents i) st = some st := by
        simp [waterIterationEvents, openAfter]
      rw [this]
      exact ih st
  unfold updateEvents solveEvents
  simp only [openAfter_append, openAfter, Option.bind_some, hw, routeSedimentEvents,
    finalizeTimestepEvents, if_true]

/-- Outside updates there is an exception: a resumed job of a parallel run loads its checkpoint a
second time without calling the hook. -/
theorem C47_parallel_resume_witness : ¬ HooksInPlace (parallelStartEvents true false) := by
  intro h
  exact (h.first .loadCheckpoint).1 rfl

/-- A job of a parallel run that is not resumed calls all hooks. -/
theorem C47_parallel (iters : List ℕ) : HooksInPlace (initEvents false true false ++
    parallelStartEvents false false ++ iters.flatMap updateEvents) :=
  inPlace_append (inPlace_of (by decide)) (inPlace_flatMap fun n _ => C47_update n)

/-- C47: a class that defines an outdated hook, which would not be called, is refused; the hook named in its place is
called in every update. -/
theorem C47_deprecated (attrs : List String) :
    (checkDeprecated attrs deprecatedHooks = .ok () ↔
      "hook_sed_route" ∉ attrs ∧ "hook_run_one_timestep" ∉ attrs) ∧
    ∀ old new, checkDeprecated attrs deprecatedHooks = .error (old, new) → old ∈ attrs ∧
      (∀ s : Step, s.hookName ≠ old) ∧ ∀ itermax, ∃ s ∈ hooked (updateEvents itermax), s.hookName = new := by
  have hn : ∀ s : Step, s.hookName ≠ "hook_sed_route" ∧ s.hookName ≠ "hook_run_one_timestep" := by
    intro s; cases s <;> simp [Step.hookName]
  have hm : ∀ itermax, Step.routeSediment ∈ hooked (updateEvents itermax) ∧
      Step.solveWaterAndSediment ∈ hooked (updateEvents itermax) := by
    intro itermax
    have key : ∀ s, Ev.hook s ∈ updateEvents itermax → s ∈ hooked (updateEvents itermax) := by
      intro s hs
      exact List.mem_filterMap.2 ⟨_, hs, rfl⟩
    exact ⟨key _ (by simp [updateEvents, solveEvents]), key _ (by simp [updateEvents])⟩
  by_cases h1 : "hook_sed_route" ∈ attrs
  · refine ⟨by simp [checkDeprecated, deprecatedHooks, h1], ?_⟩
    intro old new h
    simp only [checkDeprecated, deprecatedHooks, h1, if_true, Except.error.injEq, Prod.mk.injEq] at h
    obtain ⟨rfl, rfl⟩ := h
    exact ⟨h1, fun s => (hn s).1, fun n => ⟨_, (hm n).1, rfl⟩⟩
  · by_cases h2 : "hook_run_one_timestep" ∈ attrs
    · refine ⟨by simp [checkDeprecated, deprecatedHooks, h1, h2], ?_⟩
      intro old new h
      simp only [checkDeprecated, deprecatedHooks, h1, h2, if_true, if_false, Except.error.injEq, Prod.mk.injEq] at h
      obtain ⟨rfl, rfl⟩ := h
      exact ⟨h2, fun s => (hn s).2, fun n => ⟨_, (hm n).2, rfl⟩⟩
    · refine ⟨by simp [checkDeprecated, deprecatedHooks, h1, h2], ?_⟩
      intro old new h
      simp [checkDeprecated, deprecatedHooks, h1, h2] at h

/-- C47: steps with the same hook are the same step, so every hook has its own name. -/
theorem C47_names {s t : Step} (h : s.hookName = t.hookName) :
    s = t ∨ ∃ i j, s = .finalizeWaterIteration i ∧ t = .finalizeWaterIteration j := by
  cases s <;> cases t <;> simp [Step.hookName] at h ⊢

-- C47: two iterations
example : documented 2 = [.solveWaterAndSediment, .routeWater, .initWaterIteration,
    .runWaterIteration, .computeFreeSurface, .finalizeWaterIteration 0, .initWaterIteration,
    .runWaterIteration, .computeFreeSurface, .finalizeWaterIteration 1, .routeSediment,
    .initSedimentIteration, .routeAllSandParcels, .topoDiffusion, .routeAllMudParcels,
    .applySubsidence, .finalizeTimestep, .computeSandFrac, .outputData, .outputCheckpoint] := rfl

end Verif.Props
