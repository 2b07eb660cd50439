import Verif.Model.DictInput
import Verif.Props.Ensemble

/-!
# C88: a configuration given as a dictionary
-/

set_option linter.unusedSectionVars false
set_option linter.unusedSimpArgs false

namespace Verif.Props

open Verif.Model Verif.Spec

variable {D : Type*} [DecidableEq D]

/-- C88: which arguments are refused before anything is expanded. -/
theorem C88_refused (resolve : String → D) (rt : Yaml → Yaml) (seeds : ℕ → ℕ) (F : Folders D) (inp : InputArg)
    (kw : Dict Yaml) :
    (preprocessArg resolve rt seeds F inp kw = .error .noArguments ↔
      (inp = .none ∨ inp = .dict []) ∧ kw = []) ∧
    (preprocessArg resolve rt seeds F inp kw = .error .invalid ↔ inp = .other) := by
  unfold preprocessArg
  have hx : ∀ (file : Option (Dict Yaml)) (e : ArgErr), (∀ p, e ≠ .expand p) →
      fromExpand (preprocess resolve rt seeds F file kw) ≠ .error e := by
    intro file e he h
    cases hp : preprocess resolve rt seeds F file kw with
    | error p => rw [hp] at h; simp only [fromExpand, Except.error.injEq] at h; exact he p h.symm
    | ok R => rw [hp] at h; simp [fromExpand] at h
  have n1 : ∀ p, ArgErr.noArguments ≠ .expand p := by intro p h; cases h
  have n2 : ∀ p, ArgErr.invalid ≠ .expand p := by intro p h; cases h
  match inp with
  | .none =>
    by_cases hk : kw = []
    · simp [InputArg.missing, hk]
    · simp [InputArg.missing, hk, openInput, hx _ _ n1, hx _ _ n2]
  | .dict [] =>
    by_cases hk : kw = []
    · simp [InputArg.missing, hk]
    · simp [InputArg.missing, hk, openInput, hx _ _ n1, hx _ _ n2]
  | .dict (p :: d) => simp [InputArg.missing, openInput, hx _ _ n1, hx _ _ n2]
  | .path (some d) => simp [InputArg.missing, openInput, hx _ _ n1, hx _ _ n2]
  | .path .none => simp [InputArg.missing, openInput]
  | .other => simp [InputArg.missing, openInput]

/-- C88: with a dictionary of several jobs the jobs are those of a file with the same content. Partial: C88 claims this
for a single job too, see `C88_single`. -/
theorem C88_multi_partial {resolve : String → D} {rt : Yaml → Yaml} {seeds : ℕ → ℕ} {F : Folders D}
    {d kw : Dict Yaml} (hd : d ≠ [] ∨ kw ≠ []) {R : Expanded D} {ds : List D} (hm : Multi R ds) :
    (preprocessArg resolve rt seeds F (.dict d) kw = .ok R ↔
      preprocessArg resolve rt seeds F (.path (some d)) kw = .ok R) ∧
    ∃ js, runInputs R (.dict d) = .ok js ∧ runInputs R (.path (some d)) = .ok js := by
  have h1 : ¬ ((InputArg.dict d).missing = true ∧ kw = []) := by
    rintro ⟨h, h'⟩
    rcases hd with hd | hd
    · simp [InputArg.missing] at h; exact hd h
    · exact hd h'
  refine ⟨?_, ?_⟩
  · unfold preprocessArg
    rw [if_neg h1, if_neg (by simp [InputArg.missing])]
    rfl
  · unfold Multi at hm
    have hany : R.sources.any Source.isInput = false := by
      rw [hm, List.any_eq_false]
      intro x hx
      obtain ⟨y, -, rfl⟩ := List.mem_map.1 hx
      simp [Source.isInput]
    refine ⟨jobInputs R none, ?_, ?_⟩
    · simp only [runInputs, hany, Bool.false_eq_true, if_false]
    · simp only [runInputs]
      congr 1
      unfold jobInputs
      rw [hm]
      clear hany h1 hm
      generalize R.configs = cs
      induction cs generalizing ds with
      | nil => rfl
      | cons c cs ih =>
        cases ds with
        | nil => rfl
        | cons x ds =>
          have := ih (ds := ds)
          simp only [List.map_cons, List.zipWith_cons_cons, jobFile] at this ⊢
          rw [this]

/-- C88 fails for a single job: the preprocessor accepts the dictionary, but running always raises an exception; with the
same configuration in a file there is a job. -/
theorem C88_single {resolve : String → D} {rt : Yaml → Yaml} {seeds : ℕ → ℕ} {F : Folders D}
    {d kw : Dict Yaml} (hd : d ≠ [])
    (hs : ∀ k, k = "ensemble" ∨ k = "set" ∨ k = "matrix" → k ∉ dkeys (combined (some d) kw)) :
    ∃ R, preprocessArg resolve rt seeds F (.dict d) kw = .ok R ∧ runInputs R (.dict d) = .error .openDict ∧
      ∃ c, runInputs R (.path (some d)) = .ok [(some d, c)] := by
  have e1 := hs "ensemble" (by simp)
  have e2 := hs "set" (by simp)
  have e3 := hs "matrix" (by simp)
  have hc : preprocess resolve rt seeds F (some d) kw =
      .ok ⟨combined (some d) kw, [combined (some d) kw], [.input], F⟩ := by
    unfold preprocess constructFileList
    simp [prelimParse, e1, e2, e3]
  refine ⟨⟨combined (some d) kw, [combined (some d) kw], [.input], F⟩, ?_, ?_, ?_⟩
  · unfold preprocessArg
    rw [if_neg (by simp [InputArg.missing, hd])]
    simp only [openInput, hc, fromExpand]
  · simp [runInputs, Source.isInput]
  · exact ⟨_, rfl⟩

/-- C88: the dictionary of the user is left as it is, unless it has a matrix and there is an ensemble. Partial: C88
claims that it is always left as it is, see `C88_seeds_stay`. -/
theorem C88_unchanged_partial (seeds : ℕ → ℕ) {d kw : Dict Yaml}
    (h : "ensemble" ∉ dkeys (combined (some d) kw) ∨ "matrix" ∉ dkeys d ∨ "matrix" ∈ dkeys kw) :
    dictAfter seeds d kw = d := by
  unfold dictAfter
  simp only
  generalize hp : prelimParse (combined (some d) kw) = r
  match r with
  | .error _ => rfl
  | .ok P =>
    have hP : P.cfg = combined (some d) kw := by
      unfold prelimParse at hp
      split_ifs at hp
      cases hp; rfl
    simp only [hP]
    cases he : dget (combined (some d) kw) "ensemble" with
    | none => rfl
    | some y =>
      simp only
      cases hy : y.asInt with
      | none => rfl
      | some n =>
        simp only
        split_ifs with hn
        · rfl
        · rcases h with h | h | h
          · exact absurd (mem_dkeys.2 ⟨_, he⟩) h
          · simp [dget_none.2 h]
          · exact absurd (Or.inr (Or.inr h)) hn

/-- C88 fails for an ensemble with a matrix: the seeds stay in the matrix of the user, and the preprocessor refuses the
dictionary from then on, whatever the keywords for other parameters and wherever the output goes. -/
theorem C88_seeds_stay {seeds : ℕ → ℕ} {d kw : Dict Yaml} (hk : Keyed d) (hkw : Keyed kw)
    {y : Yaml} {n : ℤ} (he : dget d "ensemble" = some y) (hy : y.asInt = some n) (hn : n ≠ 1)
    {m : Dict Yaml} (hm : dget d "matrix" = some (.dict m)) (hsd : "seed" ∉ dkeys m) (hs : "set" ∉ dkeys d)
    (h1 : "ensemble" ∉ dkeys kw) (h2 : "matrix" ∉ dkeys kw) (h3 : "set" ∉ dkeys kw) :
    ∃ l, dget (dictAfter seeds d kw) "matrix" = some (.dict (dset m "seed" l)) ∧
      dictAfter seeds d kw ≠ d ∧
      ∀ (resolve : String → D) (rt : Yaml → Yaml) (seeds' : ℕ → ℕ) (F : Folders D) (kw' : Dict Yaml), Keyed kw' →
        "ensemble" ∉ dkeys kw' → "matrix" ∉ dkeys kw' → "set" ∉ dkeys kw' →
        preprocessArg resolve rt seeds' F (.dict (dictAfter seeds d kw)) kw' = .error (.expand .seedInMatrix) := by
  have comb : ∀ {d kw : Dict Yaml}, Keyed d → Keyed kw → ∀ {k}, k ∉ dkeys kw →
      dget (combined (some d) kw) k = dget d k := by
    intro d kw hd hkw k hk
    unfold combined
    rw [dget_dupdate hkw]
    unfold over
    rw [dget_none.2 hk]
    simp only [Option.getD_some]
    rw [dget_dupdate hd]
    unfold over
    cases dget d k <;> rfl
  have key : ∀ {d kw : Dict Yaml}, Keyed d → Keyed kw → "set" ∉ dkeys d → "set" ∉ dkeys kw →
      prelimParse (combined (some d) kw) = .ok ⟨combined (some d) kw, "ensemble" ∈ dkeys (combined (some d) kw),
        false, "matrix" ∈ dkeys (combined (some d) kw)⟩ := by
    intro d kw hd hkw hs hs'
    have : "set" ∉ dkeys (combined (some d) kw) := by
      rw [← dget_none, comb hd hkw hs', dget_none]; exact hs
    simp [prelimParse, this]
  have hA : dictAfter seeds d kw =
      dset d "matrix" (.dict (dset m "seed" (.list ((List.range n.toNat).map (fun j => seedVal (seeds j)))))) := by
    unfold dictAfter
    simp only [key hk hkw hs h3, comb hk hkw h1, he, hy]
    rw [if_neg (by simp [hn, h2]), hm]
    simp only [if_neg hsd]
  have hg : dget (dictAfter seeds d kw) "matrix" =
      some (.dict (dset m "seed" (.list ((List.range n.toNat).map (fun j => seedVal (seeds j)))))) := by
    rw [hA, dget_dset, if_pos rfl]
  refine ⟨_, hg, ?_, ?_⟩
  · intro e
    rw [e, hm] at hg
    simp only [Option.some.injEq, Yaml.dict.injEq] at hg
    apply hsd
    rw [hg, mem_dkeys_dset]
    exact Or.inl rfl
  · intro resolve rt seeds' F kw' hkw' h1' h2' h3'
    have hkA : Keyed (dictAfter seeds d kw) := by rw [hA]; exact keyed_dset hk _ _
    have hsA : "set" ∉ dkeys (dictAfter seeds d kw) := by
      rw [hA, mem_dkeys_dset]; simp [hs]
    have heA : dget (dictAfter seeds d kw) "ensemble" = some y := by
      rw [hA, dget_dset, if_neg (by decide), he]
    have hne : dictAfter seeds d kw ≠ [] := by
      intro e; rw [e] at heA; simp [dget] at heA
    have hcE : dget (combined (some (dictAfter seeds d kw)) kw') "ensemble" = some y := by
      rw [comb hkA hkw' h1', heA]
    have hcM := comb hkA hkw' h2'
    rw [hg] at hcM
    have hE : "ensemble" ∈ dkeys (combined (some (dictAfter seeds d kw)) kw') := mem_dkeys.2 ⟨_, hcE⟩
    have hx : preprocess resolve rt seeds' F (some (dictAfter seeds d kw)) kw' = .error .seedInMatrix := by
      unfold preprocess constructFileList
      simp only [key hkA hkw' hsA h3', hE, decide_true, if_true]
      unfold expandEnsemble
      simp only [hcE, hy, if_neg hn, Bool.false_eq_true, if_false, dget_ddel, hcM]
      simp [mem_dkeys_dset]
    unfold preprocessArg
    rw [if_neg (by simp [InputArg.missing, hne])]
    simp only [openInput, hx, fromExpand]

/-- The dictionary of the documentation, with a matrix and an ensemble, can be used once. -/
example : dget (dictAfter (fun i => i + 7) [("out_dir", .scalar (.str "out")), ("ensemble", .scalar (.int 2)),
      ("matrix", .dict [("f_bedload", .list [.scalar (.float (3 / 10)), .scalar (.float (1 / 2))])])] []) "matrix" =
    some (.dict [("f_bedload", .list [.scalar (.float (3 / 10)), .scalar (.float (1 / 2))]),
      ("seed", .list [.scalar (.int 7), .scalar (.int 8)])]) := rfl

end Verif.Props
