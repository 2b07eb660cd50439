import Verif.Spec.DocClasses
import Verif.Props.Custom
import Verif.Props.Diffusion

/-!
# C116: own methods, and the classes of the documentation
-/

set_option linter.unusedSectionVars false
set_option linter.unusedSimpArgs false

namespace Verif.Props

open Verif.Model Verif.Lemmas Verif.Spec

variable {K : Type*} [Field K] [LinearOrder K] [IsStrictOrderedRing K] [FloorRing K] {α σ : Type*} {L W m : ℕ}
  [NeZero L] [NeZero W]

/-! ## Own methods that do what the methods do -/

lemma on_then {A : α → Prop} {f g : Doing L W m K α σ} {f0 g0 : Doing L W m K Unit σ} (hf : MimicsOn A f f0)
    (hg : MimicsOn A g g0) : MimicsOn A (Doing.andThen f g) (Doing.andThen f0 g0) := by
  intro c hc
  obtain ⟨h1, h2⟩ := hf c hc
  unfold Doing.andThen
  rw [← h1]
  cases hfc : f c with
  | error e => exact ⟨rfl, fun c' h => by cases h⟩
  | ok c1 => exact hg c1 (h2 c1 hfc)

lemma on_invoke {A : α → Prop} {U : UserClass L W m K α σ} {g : Rng K σ} (hU : Transparent A U g) (s : Step)
    {f : Doing L W m K α σ} (hf : MimicsOn A f (methodOf g s)) : MimicsOn A (invoke U s f) (methodOf g s) := by
  have h : MimicsOn A ((U.own s).getD f) (methodOf g s) := by
    cases e : U.own s with
    | none => exact hf
    | some f' => exact hU.own s f' e
  have := on_then (hU.hook s) h
  rwa [ok_then] at this

/-- What leaves the added attributes alone and does not depend on them. -/
lemma on_of {A : α → Prop} {f : Doing L W m K α σ} {f0 : Doing L W m K Unit σ} (h : ∀ c, (f c).map stripped = f0 (stripped c))
    (he : ∀ c c', f c = .ok c' → c'.extra = c.extra) : MimicsOn A f f0 :=
  fun c hc => ⟨h c, fun c' h' => by rw [he c c' h']; exact hc⟩

lemma on_run (A : α → Prop) (g : Rng K σ) :
    MimicsOn A (runWaterAct (L := L) (W := W) (m := m) g) (runWaterAct g) := by
  refine on_of (fun c => ?_) (fun c c' h => ?_)
  · unfold runWaterAct stripped
    dsimp only
    generalize waterWeightArray c.P c.S = r
    cases r with
    | error e => rfl
    | ok w =>
      dsimp only
      generalize runWaterIteration g (waterEnv c.P c.S w) (fun k => ((c.P.inlet k).val : ℤ)) c.P.NpWater c.S.ncols c.rng = r
      cases r with
      | error e => rfl
      | ok w => rfl
  · unfold runWaterAct at h
    split at h
    · cases h
    · split at h
      · cases h
      · cases h; rfl

lemma on_surface (A : α → Prop) : MimicsOn A (freeSurfaceAct (L := L) (W := W) (m := m) (K := K) (σ := σ)) freeSurfaceAct := by
  refine on_of (fun c => ?_) (fun c c' h => ?_)
  · unfold freeSurfaceAct stripped
    dsimp only
    generalize computeFreeSurface c.P c.S c.parcels = r
    cases r with
    | error e => rfl
    | ok w => rfl
  · unfold freeSurfaceAct at h
    split at h
    · cases h
    · cases h; rfl

lemma on_parcels (A : α → Prop) (g : Rng K σ) (k : Sed) :
    MimicsOn A (routeParcelsAct (L := L) (W := W) (m := m) g k) (routeParcelsAct g k) := by
  refine on_of (fun c => ?_) (fun c c' h => ?_)
  · unfold routeParcelsAct stripped
    dsimp only
    generalize routeParcels g k (sedParams c.P c.R) c.S c.rng = r
    cases r with
    | error e => rfl
    | ok w => rfl
  · unfold routeParcelsAct at h
    split at h
    · cases h
    · cases h; rfl

lemma on_ok {A : α → Prop} {f : Doing L W m K α σ} {f0 : Doing L W m K Unit σ} (h : ∀ c, (f c).map stripped = f0 (stripped c))
    (he : ∀ c, ∃ c', f c = .ok c' ∧ c'.extra = c.extra) : MimicsOn A f f0 :=
  on_of h fun c c' h' => by
    obtain ⟨d, h1, h2⟩ := he c
    rw [h1] at h'
    cases h'
    exact h2

lemma on_water {A : α → Prop} {U : UserClass L W m K α σ} {g : Rng K σ} (hU : Transparent A U g) :
    MimicsOn A (routeWaterAct U g) (routeWaterAct plainClass g) := by
  have hpass : ∀ n i, MimicsOn A (waterPasses U g i n) (waterPasses plainClass g i n) := by
    intro n
    induction n with
    | zero => exact fun i => on_ok (fun c => rfl) fun c => ⟨c, rfl, rfl⟩
    | succ n ih =>
      intro i
      refine on_then ?_ (ih (i + 1))
      unfold waterPass
      rw [invoke_plain, invoke_plain, invoke_plain, invoke_plain]
      exact on_then (on_invoke hU .initWaterIteration (on_ok (fun c => rfl) fun c => ⟨_, rfl, rfl⟩))
        (on_then (on_invoke hU .runWaterIteration (on_run A g)) (on_then (on_invoke hU .computeFreeSurface (on_surface A))
          (on_invoke hU (.finalizeWaterIteration i) (on_ok (fun c => rfl) fun c => ⟨_, rfl, rfl⟩))))
  exact fun c => hpass c.P.itermax 0 c

lemma on_sediment {A : α → Prop} {U : UserClass L W m K α σ} {g : Rng K σ} (hU : Transparent A U g) :
    MimicsOn A (routeSedimentAct U g) (routeSedimentAct plainClass g) := by
  unfold routeSedimentAct
  rw [invoke_plain, invoke_plain, invoke_plain, invoke_plain]
  exact on_then (on_invoke hU .initSedimentIteration (on_ok (fun c => rfl) fun c => ⟨_, rfl, rfl⟩))
    (on_then (on_invoke hU .routeAllSandParcels (on_parcels A g .sand))
      (on_then (on_invoke hU .topoDiffusion (on_ok (fun c => rfl) fun c => ⟨_, rfl, rfl⟩))
        (on_invoke hU .routeAllMudParcels (on_parcels A g .mud))))

lemma on_solve {A : α → Prop} {U : UserClass L W m K α σ} {g : Rng K σ} (hU : Transparent A U g) :
    MimicsOn A (solveAct U g) (solveAct plainClass g) := by
  unfold solveAct
  rw [invoke_plain, invoke_plain, plain_after, plain_after]
  exact on_then (on_ok (fun c => rfl) fun c => ⟨_, rfl, rfl⟩) (on_then (on_invoke hU .routeWater (on_water hU))
    (on_then (hU.after _) (on_then (on_invoke hU .routeSediment (on_sediment hU)) (hU.after _))))

lemma on_finalize {A : α → Prop} {U : UserClass L W m K α σ} {g : Rng K σ} (hU : Transparent A U g) :
    MimicsOn A (finalizeAct U) (finalizeAct plainClass) := by
  unfold finalizeAct
  rw [invoke_plain]
  exact on_then (on_ok (fun c => rfl) fun c => ⟨_, rfl, rfl⟩)
    (on_then (on_invoke hU .computeSandFrac (on_ok (fun c => rfl) fun c => ⟨_, rfl, rfl⟩))
      (on_ok (fun c => rfl) fun c => ⟨_, rfl, rfl⟩))

lemma on_step {A : α → Prop} {U : UserClass L W m K α σ} {g : Rng K σ} (hU : Transparent A U g) :
    MimicsOn A (customStep U g) (customStep plainClass g) := by
  unfold customStep
  rw [invoke_plain, invoke_plain, invoke_plain, plain_after]
  exact on_then (on_invoke hU .solveWaterAndSediment (on_solve hU))
    (on_then (on_invoke hU .applySubsidence (on_ok (fun c => rfl) fun c => ⟨_, rfl, rfl⟩))
      (on_then (on_invoke hU .finalizeTimestep (on_finalize hU)) (on_then (hU.after _)
        (on_ok (fun c => rfl) fun c => ⟨_, rfl, rfl⟩))))

/-- C116: a class whose own methods do what the methods of `DeltaModel` do, and whose hooks change only attributes that it has
added, as long as these attributes satisfy `A`, works as if it had none of them: runs of any length raise what they raise
without, and otherwise the parameters, what the routers hold, all fields and the random numbers to come are the same. -/
theorem C116_transparent {A : α → Prop} {U : UserClass L W m K α σ} {g : Rng K σ} (hU : Transparent A U g) (n : ℕ)
    {c : Custom L W m K α σ} (hA : A c.extra) (hR : sedParams c.P c.R = c.P) :
    (customRun U g n c).map shown = (timesteps g (List.replicate n c.P) c.S c.rng).map fun r => (c.P, c.R, r.1, r.2.2) := by
  have h : MimicsOn A (customRun U g n) (customRun plainClass g n) := by
    induction n with
    | zero => exact on_ok (fun c => rfl) fun c => ⟨_, rfl, rfl⟩
    | succ n ih => exact on_then (on_step hU) ih
  have h1 := (h c hA).1
  have h2 := C112_quiet_run (U := plainClass) ⟨fun s c => ⟨_, rfl⟩, fun s c => ⟨_, rfl⟩, fun s => rfl⟩ g n (stripped c) hR
  rw [← h1] at h2
  change _ = (timesteps g (List.replicate n c.P) c.S c.rng).map fun r => (c.P, c.R, r.1, r.2.2) at h2
  rw [← h2]
  cases customRun U g n c with
  | error e => rfl
  | ok d => rfl

/-! ## Tree throw -/

lemma factor_one (ct : Grid L W ℤ) (mult : K) (qs : Grid L W K) : ∀ (n : ℕ) (eta : Grid L W K),
    treeDiffusion ct (fun _ => 1) mult qs n eta = topoDiffusion ct mult qs n eta
  | 0, eta => rfl
  | n + 1, eta => by
    unfold treeDiffusion topoDiffusion
    rw [factor_one ct mult qs n]
    congr 1
    funext x
    congr 1
    unfold treeChange diffusionChange
    simp only [one_mul]

/-- C116: a `TreeThrowModel` without `tree_throw` (the default) is the model itself, over runs of any length: same fields, same
random numbers. -/
theorem C116_off (g : Rng K σ) (n : ℕ) {c : Custom L W m K (Trees L W K) σ} (ho : c.extra.throw = false)
    (hf : c.extra.factor = fun _ => 1) (hR : sedParams c.P c.R = c.P) :
    (customRun (treeClass g) g n c).map shown =
      (timesteps g (List.replicate n c.P) c.S c.rng).map fun r => (c.P, c.R, r.1, r.2.2) := by
  refine C116_transparent (A := fun T => T.throw = false ∧ T.factor = fun _ => 1) ?_ n ⟨ho, hf⟩ hR
  refine ⟨fun s c hc => ⟨rfl, ?_⟩, fun s => ?_, fun s f hf => ?_⟩
  · rintro c' h
    cases h
    exact hc
  · intro c hc
    have h0 : ∀ c', (Except.ok c : Except Err (Custom L W m K (Trees L W K) σ)) = .ok c' →
        c'.extra.throw = false ∧ c'.extra.factor = fun _ => 1 := by
      intro c' h
      cases h
      exact hc
    cases s
    case routeSediment =>
      have e : (treeClass g).after .routeSediment c = .ok { c with extra := countDry c.P.dryDepth c.S.depth c.extra } := by
        change treeHook g c = _
        unfold treeHook
        simp only [show (countDry c.P.dryDepth c.S.depth c.extra).throw = false from hc.1, Bool.false_eq_true, if_false]
      rw [e]
      refine ⟨rfl, ?_⟩
      intro c' h
      cases h
      exact hc
    all_goals exact ⟨rfl, h0⟩
  · cases s
    case topoDiffusion =>
      cases hf
      intro c hc
      refine ⟨?_, ?_⟩
      · unfold treeDiffusionAct methodOf diffusionAct stripped
        dsimp only [Except.map]
        rw [hc.2, factor_one]
      · intro c' h
        cases h
        exact hc
    all_goals cases hf

lemma then_ok (f : Doing L W m K α σ) : Doing.andThen f .ok = f := by
  funext c
  unfold Doing.andThen
  cases f c with
  | error e => rfl
  | ok c1 => rfl

/-- Routing does not depend on the hooks after steps. -/
lemma same_routing {U V : UserClass L W m K α σ} (hh : U.hook = V.hook) (ho : U.own = V.own) (g : Rng K σ) :
    routeWaterAct U g = routeWaterAct V g ∧ routeSedimentAct U g = routeSedimentAct V g := by
  have e : ∀ s (f : Doing L W m K α σ), invoke U s f = invoke V s f := by
    intro s f
    unfold invoke
    rw [hh, ho]
  have hp : ∀ n i, waterPasses U g i n = waterPasses V g i n := by
    intro n
    induction n with
    | zero => intro i; rfl
    | succ n ih =>
      intro i
      unfold waterPasses
      rw [ih]
      unfold waterPass
      simp only [e]
  constructor
  · funext c
    unfold routeWaterAct
    rw [hp]
  · unfold routeSedimentAct
    simp only [e]

lemma keeps_extra_leaves (a : α) (P : Params L W m K) (g : Rng K σ) :
    Leaves (Keeps fun d : Custom L W m K α σ => d.extra = a ∧ d.P = P) g where
  initWater := fun c c' hc h => by cases h; exact hc
  runWater := fun c c' hc h => by
    unfold runWaterAct at h
    split at h
    · cases h
    · split at h
      · cases h
      · cases h; exact hc
  freeSurface := fun c c' hc h => by
    unfold freeSurfaceAct at h
    split at h
    · cases h
    · cases h; exact hc
  finalizeWater := fun i c c' hc h => by cases h; exact hc
  initSediment := fun c c' hc h => by cases h; exact hc
  parcels := fun k c c' hc h => by
    unfold routeParcelsAct at h
    split at h
    · cases h
    · cases h; exact hc
  diffusion := fun c c' hc h => by cases h; exact hc
  subsidence := fun c c' hc h => by cases h; exact hc
  settle := fun c c' hc h => by cases h; exact hc
  sandFrac := fun c c' hc h => by cases h; exact hc
  seaLevel := fun c c' hc h => by cases h; exact hc
  clock := fun c c' hc h => by cases h; exact hc

lemma hookless_keeps (a : Trees L W K) (P : Params L W m K) (g : Rng K σ) :
    All (Keeps fun d : Custom L W m K (Trees L W K) σ => d.extra = a ∧ d.P = P) (hookless g) := by
  refine ⟨fun s c c' hc h => by cases h; exact hc, fun s c c' hc h => by cases h; exact hc, fun s f hf => ?_⟩
  cases s
  case topoDiffusion =>
    cases hf
    intro c c' hc h
    cases h
    exact hc
  all_goals cases hf

/-- What a timestep of `TreeThrowModel` does: solving without the hook, the hook, and the rest, which leaves the trees. -/
lemma tree_step {g : Rng K σ} {c c' : Custom L W m K (Trees L W K) σ} (h : customStep (treeClass g) g c = .ok c') :
    ∃ d e, solveAct (hookless g) g c = .ok d ∧ treeHook g d = .ok e ∧ c'.extra = e.extra ∧ d.extra = c.extra ∧ d.P = c.P ∧
      c'.P = c.P ∧ c'.rng = e.rng := by
  have e1 : customStep (treeClass g) g = Doing.andThen (solveAct (hookless g) g) (Doing.andThen (treeHook g)
      (Doing.andThen (invoke (hookless g) .applySubsidence subsidenceAct) (Doing.andThen
        (invoke (hookless g) .finalizeTimestep (finalizeAct (hookless g)))
        (Doing.andThen ((hookless g).after .finalizeTimestep) clockAct)))) (L := L) (W := W) (m := m) := by
    have e2 : solveAct (treeClass g) g = Doing.andThen (solveAct (hookless g) g) (treeHook g) (L := L) (W := W) (m := m) := by
      obtain ⟨h1, h2⟩ := same_routing (U := (treeClass g : UserClass L W m K (Trees L W K) σ)) (V := hookless g) rfl rfl g
      unfold solveAct
      rw [h1, h2, show (hookless g).after .routeSediment = (.ok : Doing L W m K (Trees L W K) σ) from rfl, then_ok]
      simp only [andThen_assoc]
      rfl
    unfold customStep
    rw [show invoke (treeClass g) .solveWaterAndSediment (solveAct (treeClass g) g) =
      (solveAct (treeClass g) g : Doing L W m K (Trees L W K) σ) from rfl, e2, andThen_assoc]
    rfl
  rw [e1] at h
  obtain ⟨d, h1, h⟩ := andThen_ok h
  obtain ⟨e, h2, h⟩ := andThen_ok h
  have k1 : d.extra = c.extra ∧ d.P = c.P := by
    have r := keeps_rule (fun d : Custom L W m K (Trees L W K) σ => d.extra = c.extra ∧ d.P = c.P)
    refine r.seq keepBedAct _ ?_ (solve_rest r (hookless_keeps _ _ g) (keeps_extra_leaves _ _ g)) c d ⟨rfl, rfl⟩ h1
    intro c c' hc h
    cases h
    exact hc
  have k2 : c'.extra = e.extra ∧ c'.P = e.P ∧ c'.rng = e.rng := by
    have r : Doing.andThen (invoke (hookless g) .applySubsidence subsidenceAct) (Doing.andThen
        (invoke (hookless g) .finalizeTimestep (finalizeAct (hookless g)))
        (Doing.andThen ((hookless g).after .finalizeTimestep) clockAct)) e = Doing.andThen subsidenceAct (Doing.andThen settleAct
        (Doing.andThen sandFracAct (Doing.andThen seaLevelAct clockAct))) e := rfl
    rw [r, plain_end] at h
    cases h
    exact ⟨rfl, rfl, rfl⟩
  have k3 : e.P = d.P := by
    unfold treeHook at h2
    simp only at h2
    split at h2
    · cases h2; rfl
    · cases h2; rfl
  exact ⟨d, e, h1, h2, k2.1, k1.1, k1.2, k2.2.1.trans (k3.trans k1.2), k2.2.2⟩

/-! ## The trees after a run -/

lemma dry_zero (dd : K) (ds : List (Grid L W K)) (x : Cell L W) : DryFor dd ds 0 x := by
  refine ⟨Nat.zero_le _, ?_⟩
  intro d hd
  simp at hd

lemma dry_succ {dd : K} {ds : List (Grid L W K)} {d : Grid L W K} {n : ℕ} {x : Cell L W} :
    DryFor dd (ds ++ [d]) (n + 1) x ↔ d x < dd ∧ DryFor dd ds n x := by
  unfold DryFor
  rw [List.length_append, List.length_singleton]
  constructor
  · rintro ⟨h1, h2⟩
    have hn : n ≤ ds.length := by omega
    rw [show ds.length + 1 - (n + 1) = ds.length - n by omega, List.drop_append_of_le_length (by omega)] at h2
    exact ⟨h2 d (by simp), hn, fun e he => h2 e (List.mem_append_left _ he)⟩
  · rintro ⟨h1, h2, h3⟩
    refine ⟨by omega, ?_⟩
    rw [show ds.length + 1 - (n + 1) = ds.length - n by omega, List.drop_append_of_le_length (by omega)]
    intro e he
    rcases List.mem_append.1 he with he | he
    · exact h3 e he
    · rw [List.mem_singleton.1 he]
      exact h1

/-- The state of the trees after the depths `ds`. -/
structure TreesAfter (dd : K) (T0 : Trees L W K) (ds : List (Grid L W K)) (T : Trees L W K) : Prop where
  same : T.throw = true ∧ T.mult = T0.mult ∧ T.iter = T0.iter ∧ T.prob = T0.prob
  count : ∀ x n, n ≤ T.dryCount x ↔ DryFor dd ds n x
  young : ∀ x, T.tree x = 0 ∨ T.tree x = 1 ∧ T.iter ≤ T.dryCount x
  old : ds ≠ [] → ∀ x, T.iter ≤ T.dryCount x → T.tree x = 1

lemma trees_new (dd mult iter prob : K) :
    TreesAfter (L := L) (W := W) dd (newTrees true mult iter prob) [] (newTrees true mult iter prob) := by
  refine ⟨⟨rfl, rfl, rfl, rfl⟩, fun x n => ?_, fun x => .inl rfl, fun h => absurd rfl h⟩
  constructor
  · intro h
    have : n = 0 := Nat.le_zero.1 h
    rw [this]
    exact dry_zero _ _ _
  · rintro ⟨h, -⟩
    exact h

lemma trees_next {g : Rng K σ} {T0 : Trees L W K} {ds : List (Grid L W K)} {d e : Custom L W m K (Trees L W K) σ}
    (h : TreesAfter d.P.dryDepth T0 ds d.extra) (he : treeHook g d = .ok e) :
    TreesAfter d.P.dryDepth T0 (ds ++ [d.S.depth]) e.extra := by
  have hcount : ∀ x n, n ≤ (if d.S.depth x < d.P.dryDepth then d.extra.dryCount x + 1 else 0) ↔
      DryFor d.P.dryDepth (ds ++ [d.S.depth]) n x := by
    intro x n
    cases n with
    | zero => exact ⟨fun _ => dry_zero _ _ _, fun _ => Nat.zero_le _⟩
    | succ n =>
      rw [dry_succ, ← h.count x n]
      split
      · rename_i hd
        exact ⟨fun hn => ⟨hd, by omega⟩, fun hn => by omega⟩
      · rename_i hd
        exact ⟨fun hn => by omega, fun hn => absurd hn.1 hd⟩
  have hup : ∀ x, d.S.depth x < d.P.dryDepth → d.extra.iter ≤ d.extra.dryCount x →
      d.extra.iter ≤ ((d.extra.dryCount x + 1 : ℕ) : K) := by
    intro x _ hx
    push_cast
    linarith
  unfold treeHook at he
  simp only at he
  rw [if_pos (show (countDry d.P.dryDepth d.S.depth d.extra).throw = true from h.same.1)] at he
  cases he
  refine ⟨h.same, hcount, fun x => ?_, fun _ x hx => ?_⟩
  · dsimp only [growTrees]
    split
    · rename_i hx
      exact .inr ⟨rfl, hx⟩
    · rename_i hx
      split
      · rename_i hd
        rcases h.young x with h0 | ⟨h1, h2⟩
        · exact .inl h0
        · refine absurd ?_ hx
          change d.extra.iter ≤ ((if d.S.depth x < d.P.dryDepth then d.extra.dryCount x + 1 else 0 : ℕ) : K)
          rw [if_pos hd]
          exact hup x hd h2
      · exact .inl rfl
  · dsimp only [growTrees] at hx ⊢
    exact if_pos hx

/-- The depths from which the trees grow in a run of `n` updates: those after the sediment has been routed. -/
def RoutedDepths (g : Rng K σ) (c : Custom L W m K (Trees L W K) σ) (n : ℕ) (ds : List (Grid L W K)) : Prop :=
  ds.length = n ∧ ∀ i d, ds[i]? = some d → ∃ ci di, customRun (treeClass g) g i c = .ok ci ∧
    solveAct (hookless g) g ci = .ok di ∧ di.S.depth = d

lemma run_last {U : UserClass L W m K α σ} (g : Rng K σ) : ∀ (n : ℕ) (c : Custom L W m K α σ),
    customRun U g (n + 1) c = Doing.andThen (customRun U g n) (customStep U g) c := by
  intro n
  induction n with
  | zero =>
    intro c
    change Doing.andThen (customStep U g) .ok c = Doing.andThen .ok (customStep U g) c
    rw [then_ok, ok_then]
  | succ n ih =>
    intro c
    have e : customRun U g (n + 1) = Doing.andThen (customRun U g n) (customStep U g) := funext ih
    change Doing.andThen (customStep U g) (customRun U g (n + 1)) c = Doing.andThen (Doing.andThen (customStep U g)
      (customRun U g n)) (customStep U g) c
    rw [e, andThen_assoc]

/-- C116: in a model with tree throw there is a tree, after any update, exactly where the cell has been dry when the sediment was
routed in at least `p_tt_iter` updates up to the last; all other cells have none. -/
theorem C116_trees {g : Rng K σ} {n : ℕ} {c c' : Custom L W m K (Trees L W K) σ} {mult iter prob : K}
    (hc : c.extra = newTrees true mult iter prob) (h : customRun (treeClass g) g (n + 1) c = .ok c') :
    ∃ ds, RoutedDepths g c (n + 1) ds ∧ ∀ x,
      ((∃ k : ℕ, iter ≤ k ∧ DryFor c.P.dryDepth ds k x) → c'.extra.tree x = 1) ∧
      ((¬ ∃ k : ℕ, iter ≤ k ∧ DryFor c.P.dryDepth ds k x) → c'.extra.tree x = 0) := by
  have key : ∀ n c', customRun (treeClass g) g n c = .ok c' → c'.P = c.P ∧ ∃ ds, RoutedDepths g c n ds ∧
      TreesAfter c.P.dryDepth c.extra ds c'.extra := by
    intro n
    induction n with
    | zero =>
      intro c' h
      cases h
      refine ⟨rfl, [], ⟨rfl, ?_⟩, ?_⟩
      · intro i d hd
        simp at hd
      · rw [hc]
        exact trees_new _ _ _ _
    | succ n ih =>
      intro c' h
      rw [run_last] at h
      obtain ⟨c1, h1, h2⟩ := andThen_ok h
      obtain ⟨hP, ds, hds, hT⟩ := ih c1 h1
      obtain ⟨d, e, a1, a2, a3, a4, a5, a6, -⟩ := tree_step h2
      refine ⟨a6.trans hP, ds ++ [d.S.depth], ⟨by simp [hds.1], ?_⟩, ?_⟩
      · intro i x hx
        rcases Nat.lt_or_ge i ds.length with hi | hi
        · rw [List.getElem?_append_left hi] at hx
          exact hds.2 i x hx
        · rw [List.getElem?_append_right hi] at hx
          obtain ⟨hlt, hx⟩ := List.getElem?_eq_some_iff.1 hx
          have hi' : i = n := by
            have := hds.1
            simp only [List.length_singleton] at hlt
            omega
          subst hi'
          refine ⟨c1, d, h1, a1, ?_⟩
          rw [← hx]
          simp
      · rw [a3]
        have e1 : c.P.dryDepth = d.P.dryDepth := by rw [a5, hP]
        rw [e1] at hT ⊢
        exact trees_next (by rw [a4]; exact hT) a2
  obtain ⟨-, ds, hds, hT⟩ := key _ _ h
  refine ⟨ds, hds, fun x => ?_⟩
  have hi : c'.extra.iter = iter := by
    rw [hT.same.2.2.1, hc]
    rfl
  have hx : (∃ k : ℕ, iter ≤ k ∧ DryFor c.P.dryDepth ds k x) ↔ c'.extra.iter ≤ c'.extra.dryCount x := by
    rw [hi]
    constructor
    · rintro ⟨k, h1, h2⟩
      exact h1.trans (by exact_mod_cast (hT.count x k).mpr h2)
    · intro h1
      exact ⟨_, h1, (hT.count x _).mp le_rfl⟩
  rw [hx]
  refine ⟨hT.old (by rintro rfl; exact absurd hds.1 (by simp)) x, fun hn => ?_⟩
  rcases hT.young x with h0 | ⟨-, h1⟩
  · exact h0
  · exact absurd h1 hn

/-! ## The multiplier -/

lemma drawN_get (g : Rng K σ) : ∀ (n : ℕ) (s : σ) (i : ℕ), i < n → (drawN g n s).1.getD i 0 = numberAt g s i := by
  intro n
  induction n with
  | zero => intro s i h; omega
  | succ n ih =>
    intro s i h
    cases i with
    | zero => rfl
    | succ i =>
      simp only [drawN, List.getD_cons_succ]
      rw [ih _ i (by omega)]
      rfl

lemma drawN_end (g : Rng K σ) : ∀ (n : ℕ) (s : σ), (drawN g n s).2 = (fun s => (g.next s).2)^[n] s := by
  intro n
  induction n with
  | zero => intro s; rfl
  | succ n ih =>
    intro s
    simp only [drawN, Function.iterate_succ, Function.comp]
    exact ih _

lemma cell_number (x : Cell L W) : x.1.val * W + x.2.val < L * W := by
  have h1 := x.1.isLt
  have h2 := x.2.isLt
  calc x.1.val * W + x.2.val < x.1.val * W + W := by omega
    _ = (x.1.val + 1) * W := by ring
    _ ≤ L * W := Nat.mul_le_mul_right _ h1

/-- C116: each update draws one more random number for each cell, row by row, after those of the routing. The diffusion is
multiplied, in the next update, by `p_tt_mult` exactly in the cells with a tree, not of land, whose number is less than
`p_tt_prob`. -/
theorem C116_thrown {g : Rng K σ} {c c' : Custom L W m K (Trees L W K) σ} (ht : c.extra.throw = true)
    (h : customStep (treeClass g) g c = .ok c') :
    ∃ d, solveAct (hookless g) g c = .ok d ∧ c'.rng = (fun s => (g.next s).2)^[L * W] d.rng ∧ ∀ x,
      ((c'.extra.tree x ≠ 0 ∧ c.P.cellType x ≠ -2 ∧ numberAt g d.rng (x.1.val * W + x.2.val) < c.extra.prob) →
        c'.extra.factor x = c.extra.mult) ∧
      (¬ (c'.extra.tree x ≠ 0 ∧ c.P.cellType x ≠ -2 ∧ numberAt g d.rng (x.1.val * W + x.2.val) < c.extra.prob) →
        c'.extra.factor x = 1) := by
  obtain ⟨d, e, a1, a2, a3, a4, a5, -, a7⟩ := tree_step h
  unfold treeHook at a2
  simp only at a2
  rw [if_pos (show (countDry d.P.dryDepth d.S.depth d.extra).throw = true by rw [a4]; exact ht)] at a2
  cases a2
  refine ⟨d, a1, a7.trans (drawN_end g _ _), fun x => ?_⟩
  have hn : (drawGrid g L W d.rng).1 x = numberAt g d.rng (x.1.val * W + x.2.val) := drawN_get g _ _ _ (cell_number x)
  have hf : c'.extra.factor x = if (decide (c.P.cellType x ≠ -2) && (decide (numberAt g d.rng (x.1.val * W + x.2.val) <
      c.extra.prob) && decide (c'.extra.tree x ≠ 0))) then c.extra.mult else 1 := by
    rw [a3, ← hn, ← a4, ← a5]
    dsimp only [growTrees, assign]
    by_cases hl : d.P.cellType x = -2
    · simp only [hl, decide_true, if_true, ne_eq, not_true_eq_false, decide_false, Bool.false_and, Bool.false_eq_true, if_false]
    · simp only [hl, decide_false, Bool.false_eq_true, if_false, ne_eq, not_false_eq_true, decide_true, Bool.true_and]
      rfl
  rw [hf]
  constructor
  · rintro ⟨h1, h2, h3⟩
    rw [if_pos]
    simp only [Bool.and_eq_true, decide_eq_true_eq]
    exact ⟨h2, h3, h1⟩
  · intro hn
    rw [if_neg]
    simp only [Bool.and_eq_true, decide_eq_true_eq]
    exact fun hh => hn ⟨hh.2.2, hh.1, hh.2.1⟩

/-- C116: one pass of the diffusion with trees changes each cell by what the diffusion of the model would change it, times the
multiplier of the cell. -/
theorem C116_pass (ct : Grid L W ℤ) (f : Grid L W K) (mult : K) (qs eta : Grid L W K) (x : Cell L W) :
    treeDiffusion ct f mult qs 1 eta x = eta x + f x * (topoDiffusion ct mult qs 1 eta x - eta x) := by
  unfold treeDiffusion treeDiffusion topoDiffusion topoDiffusion treeChange diffusionChange
  dsimp only [assign]
  split
  · ring
  · split <;> ring

/-- C116: land and the first row never change, whatever the multipliers. -/
theorem C116_held (ct : Grid L W ℤ) (f : Grid L W K) (mult : K) (qs : Grid L W K) (x : Cell L W) (hx : Held ct x) :
    ∀ (n : ℕ) (eta : Grid L W K), treeDiffusion ct f mult qs n eta x = eta x
  | 0, eta => rfl
  | n + 1, eta => by
    rw [treeDiffusion, C116_held ct f mult qs x hx n]
    have h1 := C116_pass ct f mult qs eta x
    rw [C29_held ct mult qs eta 1 x hx] at h1
    rw [sub_self, mul_zero, add_zero] at h1
    exact h1

/-- C116: a model with tree throw raises no error, over runs of any length, whatever the multiplier, the number of timesteps
and the probability. -/
theorem C116_safe {g : Rng K σ} (hg : PositiveDraws g) (n : ℕ) {c : Custom L W m K (Trees L W K) σ} (hc : FitModel c) :
    ∃ c', customRun (treeClass g) g n c = .ok c' ∧ FitModel c' := by
  refine C112_safe ⟨fun s d hd => ⟨d, rfl, hd⟩, fun s d hd => ?_, fun s f hf d hd => ?_⟩ hg n hc
  · cases s
    case routeSediment =>
      change ∃ c', treeHook g d = .ok c' ∧ FitModel c'
      unfold treeHook
      dsimp only
      split
      · exact ⟨_, rfl, { hd with }⟩
      · exact ⟨_, rfl, { hd with }⟩
    all_goals exact ⟨d, rfl, hd⟩
  · cases s
    case topoDiffusion =>
      cases hf
      exact ⟨_, rfl, { hd with }⟩
    all_goals cases hf

/-! ## Bed load that changes with time -/

lemma timestep2_time {g : Rng K σ} {P R : Params L W m K} {S S' : State L W K} {l : StepLog L W K} {s s' : σ}
    (h : timestep2 g P R S s = .ok (S', l, s')) : S'.time = S.time + P.dt := by
  unfold timestep2 at h
  split at h
  · cases h
  · rename_i S1 s1 h1
    split at h
    · cases h
    · rename_i S2 sand mud s2 h2
      cases h
      have e1 : (applySubsidence P S2).time = S2.time := by
        unfold applySubsidence
        split
        · split <;> rfl
        · rfl
      have e2 : S2.time = S1.time := by
        unfold routeSediment2 at h2
        split at h2
        · cases h2
        · rename_i Sa sa ta ha
          simp only at h2
          split at h2
          · cases h2
          · rename_i Sb sb tb hb
            cases h2
            have a := (routeParcels_frame ha).2.2.2.2.2.2.2.1
            have b := (routeParcels_frame hb).2.2.2.2.2.2.2.1
            exact b.trans a
      have e3 : S1.time = S.time := (routeWater_frame h1).2.2.1
      change (applySubsidence P S2).time + P.dt = _
      rw [e1, e2, e3]

lemma bedload_rest {t1 t2 : K} {g : Rng K σ} {c c' : Custom L W m K Switches σ}
    (h : customStep (withoutSolveHook (bedloadClass t1 t2)) g c = .ok c') :
    c'.P = c.P ∧ c'.extra = c.extra ∧ c'.S.time = c.S.time + c.P.dt ∧ c'.R = c.R := by
  have hU : ∀ s, (withoutSolveHook (bedloadClass t1 t2) : UserClass L W m K Switches σ).hook s = .ok := by
    intro s
    cases s <;> rfl
  have hq := C112_quiet (U := (withoutSolveHook (bedloadClass t1 t2) : UserClass L W m K Switches σ))
    ⟨fun s c => ⟨c.extra, by rw [hU]⟩, fun s c => ⟨c.extra, rfl⟩, fun s => rfl⟩ g c
  have he := (on_step (A := fun e => e = c.extra) (U := withoutSolveHook (bedloadClass t1 t2)) (g := g)
    ⟨fun s d hd => by rw [hU]; exact ⟨rfl, fun d' h => by cases h; exact hd⟩,
      fun s d hd => ⟨rfl, fun d' h => by cases h; exact hd⟩, fun s f h => by cases h⟩ c rfl).2 c' h
  rw [h] at hq
  generalize hr : timestep2 g c.P c.R c.S c.rng = r at hq
  cases r with
  | error e => simp [Except.map] at hq
  | ok x =>
    obtain ⟨S1, l, s1⟩ := x
    simp only [Except.map, Except.ok.injEq] at hq
    unfold shown at hq
    simp only [Prod.mk.injEq] at hq
    exact ⟨hq.1, he, by rw [hq.2.2.1]; exact timestep2_time hr, hq.2.1⟩

/-- C116: in a run of a `VariableBedloadModel` every update works with the bed load fraction that belongs to the time at which it
starts: the configured one up to `t1`, one minus it up to `t2`, and the configured one again afterwards. This does not depend on
when the run starts, so it holds for resumed runs too. -/
theorem C116_bedload {t1 t2 : K} (ht : t1 ≤ t2) {g : Rng K σ} {c : Custom L W m K Switches σ} (hdt : 0 ≤ c.P.dt)
    (hc : c.extra = ⟨false, false⟩) : ∀ {n : ℕ} {c' : Custom L W m K Switches σ},
    customRun (bedloadClass t1 t2) g (n + 1) c = .ok c' →
      c'.P.fBedload = bedloadAt t1 t2 c.P.fBedload (c.S.time + n * c.P.dt) ∧ c'.S.time = c.S.time + (n + 1) * c.P.dt := by
  -- one update
  have key : ∀ (d d' : Custom L W m K Switches σ), customStep (bedloadClass t1 t2) g d = .ok d' →
      (d.extra.changed = true → t1 < d.S.time) → (d.extra.changedBack = true → t2 < d.S.time) →
      d.P.fBedload = (if d.extra.changed = d.extra.changedBack then c.P.fBedload else 1 - c.P.fBedload) →
      d.P.dt = c.P.dt →
      d'.P.fBedload = bedloadAt t1 t2 c.P.fBedload d.S.time ∧ d'.S.time = d.S.time + c.P.dt ∧ d'.P.dt = c.P.dt ∧
      (d'.extra.changed = true ↔ t1 < d.S.time) ∧ (d'.extra.changedBack = true ↔ t2 < d.S.time) := by
    intro d d' h h1 h2 h3 h4
    rw [C112_between] at h
    obtain ⟨e, a1, a2⟩ := andThen_ok h
    obtain ⟨b1, b2, b3, -⟩ := bedload_rest a2
    have a1' : bedloadHook t1 t2 d = .ok e := a1
    unfold bedloadHook mirrorBedload at a1'
    simp only [Except.ok.injEq] at a1'
    rw [b1, b2, b3]
    rcases hd : d with ⟨P, R, S, eta0, fl, ps, ⟨x, y⟩, rng⟩
    rw [hd] at h1 h2 h3 h4 a1'
    unfold bedloadAt
    dsimp only at h1 h2 h3 h4 a1' ⊢
    rcases le_or_gt S.time t1 with k1 | k1
    · have hx : x = false := by
        cases x
        · rfl
        · exact absurd (h1 rfl) (not_lt.2 k1)
      have hy : y = false := by
        cases y
        · rfl
        · exact absurd (h2 rfl) (not_lt.2 (k1.trans ht))
      subst hx hy
      simp [not_lt.2 k1, not_lt.2 (k1.trans ht)] at a1'
      subst a1'
      simp [k1, not_lt.2 k1, not_lt.2 (k1.trans ht), h3, h4]
    · rcases le_or_gt S.time t2 with k2 | k2
      · have hy : y = false := by
          cases y
          · rfl
          · exact absurd (h2 rfl) (not_lt.2 k2)
        subst hy
        cases x <;> simp [k1, not_lt.2 k2] at a1' h3 <;> subst a1' <;>
          simp [k1, not_le.2 k1, k2, not_lt.2 k2, h3, h4]
      · cases x <;> cases y <;> simp [k1, k2] at a1' h3 <;> subst a1' <;>
          simp [k1, not_le.2 k1, k2, not_le.2 k2, h3, h4]
  have main : ∀ (n : ℕ) (c' : Custom L W m K Switches σ), customRun (bedloadClass t1 t2) g (n + 1) c = .ok c' →
      c'.P.fBedload = bedloadAt t1 t2 c.P.fBedload (c.S.time + n * c.P.dt) ∧
      c'.S.time = c.S.time + (n + 1) * c.P.dt ∧ c'.P.dt = c.P.dt ∧
      (c'.extra.changed = true ↔ t1 < c.S.time + n * c.P.dt) ∧ (c'.extra.changedBack = true ↔ t2 < c.S.time + n * c.P.dt) := by
    intro n
    induction n with
    | zero =>
      intro c' h
      rw [run_last] at h
      obtain ⟨d, h1, h2⟩ := andThen_ok h
      cases h1
      have := key _ _ h2 (by rw [hc]; intro h; cases h) (by rw [hc]; intro h; cases h) (by rw [hc]; simp) rfl
      simpa using this
    | succ n ih =>
      intro c' h
      rw [run_last] at h
      obtain ⟨d, h1, h2⟩ := andThen_ok h
      obtain ⟨i1, i2, i3, i4, i5⟩ := ih d h1
      have hm : c.S.time + n * c.P.dt ≤ d.S.time := by
        rw [i2]
        nlinarith
      have := key d c' h2 (fun hx => (i4.1 hx).trans_le hm) (fun hx => (i5.1 hx).trans_le hm) (by
        rw [i1]
        unfold bedloadAt
        rcases le_or_gt (c.S.time + n * c.P.dt) t1 with k1 | k1
        · have e1 : d.extra.changed = false := by
            rw [← Bool.not_eq_true, i4]
            exact not_lt.2 k1
          have e2 : d.extra.changedBack = false := by
            rw [← Bool.not_eq_true, i5]
            exact not_lt.2 (k1.trans ht)
          rw [if_pos k1, e1, e2, if_pos rfl]
        · rw [if_neg (not_le.2 k1), i4.2 k1]
          rcases le_or_gt (c.S.time + n * c.P.dt) t2 with k2 | k2
          · have e2 : d.extra.changedBack = false := by
              rw [← Bool.not_eq_true, i5]
              exact not_lt.2 k2
            rw [if_pos k2, e2, if_neg (by simp)]
          · rw [if_neg (not_le.2 k2), i5.2 k2, if_pos rfl]) i3
      rw [i2] at this
      push_cast
      refine ⟨this.1, by rw [this.2.1]; ring, this.2.2.1, this.2.2.2⟩
  intro n c' h
  exact ⟨(main n c' h).1, (main n c' h).2.1⟩

/-- C116: the routing of the sediment goes on with the bed load fraction it was made with, in the capacity of the flow for sand
as in all else; only the numbers of sand and mud parcels follow the change. -/
theorem C116_capacity {t1 t2 : K} {g : Rng K σ} : ∀ {n : ℕ} {c c' : Custom L W m K Switches σ},
    customRun (bedloadClass t1 t2) g n c = .ok c' → c'.R = c.R := by
  intro n
  induction n with
  | zero =>
    intro c c' h
    cases h
    rfl
  | succ n ih =>
    intro c c' h
    obtain ⟨d, h1, h2⟩ := andThen_ok h
    rw [ih h2]
    rw [C112_between] at h1
    obtain ⟨e, a1, a2⟩ := andThen_ok h1
    rw [(bedload_rest a2).2.2.2]
    have a1' : bedloadHook t1 t2 c = .ok e := a1
    unfold bedloadHook mirrorBedload at a1'
    dsimp only at a1'
    rw [Except.ok.injEq] at a1'
    rw [← a1']
    split_ifs <;> rfl

/-- C116: a `VariableBedloadModel` raises no error, over runs of any length and with any times. The setter is content as well:
the fraction stays between 0 and 1. -/
theorem C116_bedload_safe (t1 t2 : K) {g : Rng K σ} (hg : PositiveDraws g) (n : ℕ) {c : Custom L W m K Switches σ}
    (hc : FitModel c) (h0 : 0 ≤ c.P.fBedload) (h1 : c.P.fBedload ≤ 1) :
    ∃ c', customRun (bedloadClass t1 t2) g n c = .ok c' ∧ FitModel c' ∧ 0 ≤ c'.P.fBedload ∧ c'.P.fBedload ≤ 1 := by
  have hook : ∀ d : Custom L W m K Switches σ, FitModel d → ∃ d', bedloadHook t1 t2 d = .ok d' ∧ FitModel d' ∧
      (d'.P.fBedload = d.P.fBedload ∨ d'.P.fBedload = 1 - d.P.fBedload) := by
    intro d hd
    have hm : ∀ (e : Custom L W m K Switches σ) (a : Switches), FitModel e → FitModel { mirrorBedload e with extra := a } :=
      fun e a he => ⟨{ he.water with }, { he.sediment with }, he.h0, he.depth, he.ncols, he.walks⟩
    refine ⟨_, rfl, ?_, ?_⟩
    · dsimp only
      split_ifs
      · exact hm _ _ (hm _ _ hd)
      · exact hm _ _ hd
      · exact hm _ _ hd
      · exact hd
    · dsimp only
      split_ifs
      · left
        simp [mirrorBedload]
      · right
        simp [mirrorBedload]
      · right
        simp [mirrorBedload]
      · left
        rfl
  have hS : All (Serves FitModel) (bedloadClass t1 t2 : UserClass L W m K Switches σ) := by
    refine ⟨fun s d hd => ?_, fun s d hd => ⟨d, rfl, hd⟩, fun s f hf => by cases hf⟩
    cases s
    case solveWaterAndSediment =>
      obtain ⟨d', e1, e2, -⟩ := hook d hd
      exact ⟨d', e1, e2⟩
    all_goals exact ⟨d, rfl, hd⟩
  obtain ⟨c', e, hc'⟩ := C112_safe hS hg n hc
  refine ⟨c', e, hc', ?_⟩
  clear hc'
  induction n generalizing c with
  | zero =>
    cases e
    exact ⟨h0, h1⟩
  | succ n ih =>
    obtain ⟨d, e1, e2⟩ := andThen_ok e
    have hd : FitModel d := by
      obtain ⟨d1, a1, a2⟩ := C112_safe hS hg 1 hc
      obtain ⟨d2, b1, b2⟩ := andThen_ok a1
      rw [e1] at b1
      cases b1
      cases b2
      exact a2
    rw [C112_between] at e1
    obtain ⟨d1, a1, a2⟩ := andThen_ok e1
    obtain ⟨d2, b1, b2, b3⟩ := hook c hc
    have a1' : bedloadHook t1 t2 c = .ok d1 := a1
    rw [b1] at a1'
    cases a1'
    have hp := (bedload_rest a2).1
    refine ih hd ?_ ?_ e2 <;> rw [hp] <;> rcases b3 with h | h <;> rw [h] <;> linarith

/-! ## Examples -/

/-- One pass with a tree thrown on the bump: the bump falls by twice as much, the cells around it gain what they did, and
the total is less than before. The diffusion with trees does not keep the sediment. -/
theorem C116_balance_witness :
    treeDiffusion (fun _ => 0) (fun x => if x = ((2, 2) : Cell 5 5) then 2 else 1) (1 / 20 : ℚ) exFlux 1 exBump (2, 2) = 1 / 5 ∧
    treeDiffusion (fun _ => 0) (fun x => if x = ((2, 2) : Cell 5 5) then 2 else 1) (1 / 20 : ℚ) exFlux 1 exBump (1, 1) = 1 / 20 ∧
    (∑ c, treeDiffusion (fun _ => 0) (fun x => if x = ((2, 2) : Cell 5 5) then 2 else 1) (1 / 20 : ℚ) exFlux 1 exBump c) = 3 / 5 ∧
    (∑ c, exBump c) = 1 := by decide +kernel

-- ten updates with tree throw from the example of C112; the trees stand where it was dry in the last two updates
example : ∃ c', customRun (treeClass constRng) constRng 10 (exCustom _ (newTrees true 100 2 (1 / 5000))) = .ok c' := by
  obtain ⟨c', h, -⟩ := C116_safe exPositive 10 (exCustom_fit _ (newTrees true 100 2 (1 / 5000)))
  exact ⟨c', h⟩

-- a bed load fraction that changes and changes back: the times are met in ten updates
example : ∃ c', customRun (bedloadClass (2 * exParams.dt) (5 * exParams.dt)) constRng 4 (exCustom _ ⟨false, false⟩) = .ok c' ∧
    c'.P.fBedload = 1 - exParams.fBedload := by
  obtain ⟨c', h, -⟩ := C116_bedload_safe (2 * exParams.dt) (5 * exParams.dt) exPositive 4
    (exCustom_fit _ (⟨false, false⟩ : Switches)) (by norm_num [exCustom, exParams]) (by norm_num [exCustom, exParams])
  refine ⟨c', h, ?_⟩
  rw [(C116_bedload (by norm_num [exParams]) (by norm_num [exCustom, exParams]) rfl h).1]
  norm_num [bedloadAt, exCustom, exParams, exState]

end Verif.Props
