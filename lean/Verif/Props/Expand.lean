import Verif.Model.Expand
import Verif.Spec.Expand
import Verif.Props.Config
import Verif.Props.FigName
import Mathlib.Data.List.ProdSigma

/-!
# C57 to C60: expansion into jobs
-/

set_option linter.unusedSectionVars false
set_option linter.unusedSimpArgs false

namespace Verif.Props

open Verif.Model Verif.Spec

variable {D : Type*} [DecidableEq D]

/-! ## Dictionaries -/

lemma dget_dupdate {V : Type*} {d e : Dict V} (he : Keyed e) (k : String) :
    dget (dupdate d e) k = over (dget d) (dget e) k := by
  induction e generalizing d with
  | nil => rfl
  | cons p e ih =>
    obtain ⟨a, v⟩ := p
    have hnd : a ∉ dkeys e ∧ Keyed e := by
      unfold Keyed dkeys at he ⊢
      simpa using he
    show dget (dupdate (dset d a v) e) k = _
    rw [ih hnd.2]
    unfold over
    by_cases h : a = k
    · subst h
      simp [dget, dget_none.2 hnd.1, dget_dset]
    · simp [dget, dget_dset, h, Ne.symm h]

lemma dkeys_dupdate {V : Type*} {d e : Dict V} (k : String) :
    k ∈ dkeys (dupdate d e) ↔ k ∈ dkeys d ∨ k ∈ dkeys e := by
  induction e generalizing d with
  | nil => simp [dupdate, dkeys]
  | cons p e ih =>
    obtain ⟨a, v⟩ := p
    show k ∈ dkeys (dupdate (dset d a v) e) ↔ _
    rw [ih]
    have h1 : k ∈ dkeys (dset d a v) ↔ k = a ∨ k ∈ dkeys d := by
      rw [mem_dkeys, mem_dkeys]
      simp only [dget_dset]
      by_cases h : k = a <;> simp [h]
    have h2 : k ∈ dkeys ((a, v) :: e) ↔ k = a ∨ k ∈ dkeys e := by simp [dkeys]
    rw [h1, h2]
    tauto

/-! ## Numbered folders -/

lemma jobId_inj {i j : ℕ} (h : jobId i = jobId j) : i = j := by
  unfold jobId at h
  have h := List.append_cancel_left h
  have hv : ∀ n, decVal (List.replicate (3 - (strNat n).length) '0' ++ strNat n) = n := by
    intro n
    rw [decVal_append, decVal_zeros, strNat_val]; simp
  rw [← hv i, ← hv j, h]

lemma pathJoin_inj {root : String} {a b : List Char} (h : pathJoin root a = pathJoin root b) : a = b := by
  unfold pathJoin at h
  split_ifs at h with hc
  · exact List.append_cancel_left (String.ofList_injective h)
  · have := List.append_cancel_left (String.ofList_injective h)
    exact List.tail_eq_of_cons_eq this

/-- C58: the paths of two jobs differ, for any number of jobs. -/
theorem C58_paths {root : String} {i j : ℕ}
    (h : pathJoin root (jobId i) = pathJoin root (jobId j)) : i = j :=
  jobId_inj (pathJoin_inj h)

/-! ## Configurations of jobs -/

lemma jobConfigs_length (root : String) (fixed : Dict Yaml) (i : ℕ) (vs : List (Dict Yaml)) :
    (jobConfigs root fixed i vs).length = vs.length := by
  induction vs generalizing i with
  | nil => rfl
  | cons v vs ih => simp [jobConfigs, ih]

lemma jobConfigs_get (root : String) (fixed : Dict Yaml) (i : ℕ) (vs : List (Dict Yaml)) (j : ℕ) :
    (jobConfigs root fixed i vs)[j]? = (vs[j]?).map (fun v => jobConfig root fixed (i + j) v) := by
  induction vs generalizing i j with
  | nil => simp [jobConfigs]
  | cons v vs ih =>
    cases j with
    | zero => simp [jobConfigs]
    | succ j =>
      simp only [jobConfigs, List.getElem?_cons_succ, ih]
      rw [show i + 1 + j = i + (j + 1) by omega]

lemma jobConfig_get {root : String} {fixed v : Dict Yaml} (hv : Keyed v) (i : ℕ) {k : String}
    (hk : k ≠ "out_dir" ∨ k ∈ dkeys v) :
    dget (jobConfig root fixed i v) k = over (dget fixed) (dget v) k := by
  unfold jobConfig
  rw [dget_dupdate hv]
  unfold over
  cases h : dget v k with
  | some x => rfl
  | none =>
    have : k ≠ "out_dir" := by
      rcases hk with hk | hk
      · exact hk
      · exact absurd hk (dget_none.1 h)
    simp [dget_dset, this]

lemma jobConfig_out {root : String} {fixed v : Dict Yaml} (hv : Keyed v) (i : ℕ)
    (hk : "out_dir" ∉ dkeys v) :
    dget (jobConfig root fixed i v) "out_dir" = some (.scalar (.str (pathJoin root (jobId i)))) := by
  unfold jobConfig
  rw [dget_dupdate hv]
  unfold over
  simp [dget_none.2 hk, dget_dset]

/-! ## Combinations -/

/-- The positions of all combinations, in the order of the code. -/
def ixCombos {V : Type*} : Dict (List V) → List (List ℕ)
  | [] => [[]]
  | (_, l) :: m => (List.range l.length).flatMap (fun i => (ixCombos m).map (fun ix => i :: ix))

lemma mem_ixCombos {V : Type*} : ∀ (m : Dict (List V)) (ix : List ℕ),
    ix ∈ ixCombos m ↔ IsChoice m ix
  | [], ix => by
    unfold IsChoice
    simp [ixCombos]
  | (a, l) :: m, ix => by
    unfold IsChoice
    simp only [ixCombos, List.mem_flatMap, List.mem_range, List.mem_map]
    constructor
    · rintro ⟨i, hi, ix', h, rfl⟩
      exact List.Forall₂.cons hi ((mem_ixCombos m ix').1 h)
    · intro h
      cases h with
      | cons h1 h2 => exact ⟨_, h1, _, (mem_ixCombos m _).2 h2, rfl⟩

lemma nodup_ixCombos {V : Type*} : ∀ (m : Dict (List V)), (ixCombos m).Nodup
  | [] => by simp [ixCombos]
  | (a, l) :: m => by
    simp only [ixCombos]
    rw [List.nodup_flatMap]
    constructor
    · intro i _
      exact (nodup_ixCombos m).map (fun x y h => List.tail_eq_of_cons_eq h)
    · refine List.nodup_range.imp ?_
      intro i j hij
      simp only [Function.onFun, List.disjoint_left, List.mem_map]
      rintro x ⟨y, -, rfl⟩ ⟨z, -, h⟩
      exact hij (List.head_eq_of_cons_eq h).symm

/-- The dictionary of a combination. -/
def dictOf {V : Type*} : Dict (List V) → List ℕ → Dict V
  | (a, l) :: m, i :: ix => (l[i]?).toList.map (fun v => (a, v)) ++ dictOf m ix
  | _, _ => []

lemma flatMap_range_getElem {V β : Type*} (l : List V) (f : V → List β) :
    l.flatMap f = (List.range l.length).flatMap (fun i => (l[i]?).toList.flatMap f) := by
  have h : l = (List.range l.length).flatMap (fun i => (l[i]?).toList) := by
    induction l with
    | nil => rfl
    | cons v l ih =>
      rw [List.length_cons, List.range_succ_eq_map, List.flatMap_cons, List.flatMap_map]
      simp only [List.getElem?_cons_zero, Option.toList_some, List.getElem?_cons_succ]
      rw [← ih]; rfl
  conv_lhs => rw [h]
  rw [List.flatMap_assoc]

lemma combos_eq {V : Type*} : ∀ m : Dict (List V), combos m = (ixCombos m).map (dictOf m)
  | [] => rfl
  | (a, l) :: m => by
    simp only [combos, ixCombos]
    rw [flatMap_range_getElem, combos_eq m, List.map_flatMap]
    apply List.flatMap_congr
    intro i hi
    have hi : i < l.length := List.mem_range.1 hi
    rw [List.getElem?_eq_getElem hi]
    simp [dictOf, List.getElem?_eq_getElem hi, Function.comp_def]

lemma dictOf_get {V : Type*} : ∀ {m : Dict (List V)} {ix : List ℕ}, Keyed m → IsChoice m ix →
    (∀ k, dget (dictOf m ix) k = chosen m ix k) ∧ dkeys (dictOf m ix) = dkeys m
  | [], ix, _, h => by
    cases h
    exact ⟨fun k => rfl, rfl⟩
  | (a, l) :: m, _, hk, h => by
    cases h with
    | @cons _ i _ ix h1 h2 =>
      have h1 : i < l.length := h1
      have hnd : Keyed m := by
        unfold Keyed dkeys at hk ⊢
        simp only [List.map_cons, List.nodup_cons] at hk
        exact hk.2
      obtain ⟨ih, ihk⟩ := dictOf_get hnd h2
      have e : dictOf ((a, l) :: m) (i :: ix) = (a, l[i]) :: dictOf m ix := by
        simp [dictOf, List.getElem?_eq_getElem h1]
      rw [e]
      constructor
      · intro k
        simp only [dget, chosen, ih, List.getElem?_eq_getElem h1]
      · simp only [dkeys, List.map_cons] at ihk ⊢
        rw [ihk]

lemma checkMatrix_ok {cfg : Dict Yaml} : ∀ {m : Dict Yaml} {vs : Dict (List Yaml)},
    checkMatrix cfg m = .ok vs → m.map (fun p => (p.1, p.2.items)) = vs.map (fun p => (p.1, some p.2)) ∧
      ∀ k ∈ dkeys m, k ∉ dkeys cfg ∧ ':' ∉ k.toList
  | [], vs, h => by
    simp only [checkMatrix, Except.ok.injEq] at h
    subst h
    exact ⟨rfl, by simp [dkeys]⟩
  | (k, v) :: m, vs, h => by
    unfold checkMatrix at h
    generalize hl : v.items = ol at h
    cases ol with
    | none => simp at h
    | some l =>
      simp only at h
      by_cases h1 : l.any Yaml.isList = true
      · rw [if_pos h1] at h; simp at h
      rw [if_neg h1] at h
      by_cases h2 : ':' ∈ k.toList
      · rw [if_pos h2] at h; simp at h
      rw [if_neg h2] at h
      by_cases h3 : k ∈ dkeys cfg
      · rw [if_pos h3] at h; simp at h
      rw [if_neg h3] at h
      generalize hm : checkMatrix cfg m = r at h
      cases r with
      | error e => simp at h
      | ok ws =>
        simp only [Except.ok.injEq] at h
        subst h
        obtain ⟨a, b⟩ := checkMatrix_ok hm
        refine ⟨by simp [hl, a], ?_⟩
        intro k' hk'
        simp only [dkeys, List.map_cons, List.mem_cons] at hk'
        rcases hk' with rfl | hk'
        · exact ⟨h3, h2⟩
        · exact b k' hk'

/-- Specification: the listed values of a matrix. -/
def Lists (m : Dict Yaml) (vals : Dict (List Yaml)) : Prop :=
  m.map (fun p => (p.1, p.2.items)) = vals.map (fun p => (p.1, some p.2))

lemma Lists.keys {m : Dict Yaml} {vals : Dict (List Yaml)} (h : Lists m vals) :
    dkeys vals = dkeys m := by
  have := congrArg (List.map Prod.fst) h
  simpa [dkeys, Function.comp_def] using this.symm

/-- Specification: `configs` are the jobs of the combinations of `vals` over `fixed`, each combination
once, and job number `i` has its own path below `root`. -/
def MatrixJobs (root : String) (fixed : String → Option Yaml) (vals : Dict (List Yaml))
    (configs : List (Dict Yaml)) : Prop :=
  ∃ ixs : List (List ℕ), ixs.Nodup ∧ (∀ ix, ix ∈ ixs ↔ IsChoice vals ix) ∧
    configs.length = ixs.length ∧
    ∀ (i : ℕ) (ix : List ℕ) (c : Dict Yaml), ixs[i]? = some ix → configs[i]? = some c →
      (∀ k, k ≠ "out_dir" → dget c k = over fixed (chosen vals ix) k) ∧
      dget c "out_dir" = some (.scalar (.str (pathJoin root (jobId i))))

lemma expandMatrix_ok {root : String} {cfg : Dict Yaml} {configs : List (Dict Yaml)}
    (h : expandMatrix root cfg = .ok configs) {m : Dict Yaml} (hm : dget cfg "matrix" = some (.dict m))
    (hk : Keyed m) :
    "out_dir" ∉ dkeys m ∧ m ≠ [] ∧ (∀ k ∈ dkeys m, k ∉ dkeys (ddel cfg "matrix") ∧ ':' ∉ k.toList) ∧
    ∃ vals, Lists m vals ∧ MatrixJobs root (dget (ddel cfg "matrix")) vals configs := by
  unfold expandMatrix at h
  rw [hm] at h
  simp only at h
  by_cases h1 : "out_dir" ∈ dkeys m
  · rw [if_pos h1] at h; simp at h
  rw [if_neg h1] at h
  generalize hc : checkMatrix (ddel cfg "matrix") m = r at h
  cases r with
  | error e => simp at h
  | ok vs =>
    obtain ⟨ha, hb⟩ := checkMatrix_ok hc
    have hl : Lists m vs := ha
    have hkv : Keyed vs := by unfold Keyed; rw [hl.keys]; exact hk
    cases vs with
    | nil => simp at h
    | cons v vs =>
      simp only [Except.ok.injEq] at h
      refine ⟨h1, ?_, hb, v :: vs, hl, ?_⟩
      · rintro rfl; simp [Lists] at hl
      · refine ⟨ixCombos (v :: vs), nodup_ixCombos _, mem_ixCombos _, ?_, ?_⟩
        · rw [← h, jobConfigs_length, combos_eq, List.length_map]
        · intro i ix c hi hci
          have hch : IsChoice (v :: vs) ix := (mem_ixCombos _ _).1 (List.mem_of_getElem? hi)
          obtain ⟨hg, hks⟩ := dictOf_get hkv hch
          rw [← h, jobConfigs_get, combos_eq, List.getElem?_map, hi] at hci
          simp only [Option.map_some, Option.some.injEq, Nat.zero_add] at hci
          subst hci
          have hkd : Keyed (dictOf (v :: vs) ix) := by unfold Keyed; rw [hks]; exact hkv
          constructor
          · intro k hk
            rw [jobConfig_get hkd i (Or.inl hk)]
            unfold over
            rw [hg]
          · exact jobConfig_out hkd i (by rw [hks, hl.keys]; exact h1)

/-! ## Folders -/

/-- The value of `out_dir` of a configuration of a job, as a folder. -/
def folderOf (resolve : String → D) (c : Dict Yaml) : Option D :=
  match dget c "out_dir" with
  | some (.scalar (.str p)) => some (resolve p)
  | _ => none

lemma writeJob_ok {resolve : String → D} {rt : Yaml → Yaml} {resume : Bool} {F F1 : Folders D}
    {c : Dict Yaml} {d : D} (h : writeJob resolve rt resume F c = .ok (F1, d)) :
    folderOf resolve c = some d ∧ (resume = false → F.present d = false) ∧
    (∀ x, F1.present x = true ↔ x = d ∨ F.present x = true) ∧
    F1.job = Function.update F.job d (dupdate (F.job d) (c.map (fun q => (q.1, rt q.2)))) := by
  unfold writeJob at h
  unfold folderOf
  generalize ho : dget c "out_dir" = o at h
  match o, h with
  | some (.scalar (.str p)), h =>
    simp only at h ⊢
    by_cases hp : F.present (resolve p) = true ∧ resume = false
    · rw [if_pos hp] at h; simp at h
    · rw [if_neg hp] at h
      simp only [Except.ok.injEq, Prod.mk.injEq] at h
      obtain ⟨rfl, rfl⟩ := h
      refine ⟨rfl, ?_, ?_, rfl⟩
      · intro hr
        by_contra hne
        exact hp ⟨by simpa using hne, hr⟩
      · intro x; simp

lemma writeJobs_ok {resolve : String → D} {rt : Yaml → Yaml} {resume : Bool} :
    ∀ {cs : List (Dict Yaml)} {F F1 : Folders D} {ds : List D},
    writeJobs resolve rt resume F cs = .ok (F1, ds) →
    List.Forall₂ (fun c d => folderOf resolve c = some d) cs ds ∧
    (resume = false → ds.Nodup ∧ ∀ d ∈ ds, F.present d = false) ∧
    (∀ x, x ∉ ds → F1.job x = F.job x) ∧
    (ds.Nodup → List.Forall₂ (fun c d =>
      F1.job d = dupdate (F.job d) (c.map (fun q => (q.1, rt q.2)))) cs ds)
  | [], F, F1, ds, h => by
    simp only [writeJobs, Except.ok.injEq, Prod.mk.injEq] at h
    obtain ⟨rfl, rfl⟩ := h
    refine ⟨.nil, fun _ => ⟨List.nodup_nil, by simp⟩, fun _ _ => rfl, fun _ => .nil⟩
  | c :: cs, F, F2, ds, h => by
    unfold writeJobs at h
    generalize hw : writeJob resolve rt resume F c = r at h
    match r, h with
    | .ok (F1, d), h =>
      simp only at h
      generalize hws : writeJobs resolve rt resume F1 cs = r' at h
      match r', h with
      | .ok (F2', ds'), h =>
        simp only [Except.ok.injEq, Prod.mk.injEq] at h
        obtain ⟨rfl, rfl⟩ := h
        obtain ⟨a1, a2, a3, a4⟩ := writeJob_ok hw
        obtain ⟨b1, b2, b3, b4⟩ := writeJobs_ok hws
        refine ⟨.cons a1 b1, ?_, ?_, ?_⟩
        · intro hr
          obtain ⟨n1, n2⟩ := b2 hr
          have hF : ∀ x, F1.present x = false → x ≠ d ∧ F.present x = false := by
            intro x hx
            constructor
            · rintro rfl
              have := (a3 x).2 (Or.inl rfl)
              rw [hx] at this; exact absurd this (by simp)
            · by_contra hne
              have := (a3 x).2 (Or.inr (by simpa using hne))
              rw [hx] at this; exact absurd this (by simp)
          refine ⟨List.nodup_cons.2 ⟨fun hmem => (hF d (n2 d hmem)).1 rfl, n1⟩, ?_⟩
          intro x hx
          rcases List.mem_cons.1 hx with rfl | hx
          · exact a2 hr
          · exact (hF x (n2 x hx)).2
        · intro x hx
          simp only [List.mem_cons, not_or] at hx
          rw [b3 x hx.2, a4, Function.update_of_ne hx.1]
        · intro hnd
          have hnd := List.nodup_cons.1 hnd
          refine .cons ?_ ?_
          · rw [b3 d hnd.1, a4, Function.update_self]
          · have hb := b4 hnd.2
            have key : ∀ (cs : List (Dict Yaml)) (ds : List D), d ∉ ds →
                List.Forall₂ (fun c x =>
                  F2'.job x = dupdate (F1.job x) (c.map (fun q => (q.1, rt q.2)))) cs ds →
                List.Forall₂ (fun c x =>
                  F2'.job x = dupdate (F.job x) (c.map (fun q => (q.1, rt q.2)))) cs ds := by
              intro cs ds hd hf
              induction hf with
              | nil => exact .nil
              | @cons c' x cs ds h1 h2 ih =>
                simp only [List.mem_cons, not_or] at hd
                refine .cons ?_ (ih hd.2)
                rw [h1, a4, Function.update_of_ne (Ne.symm hd.1)]
            exact key _ _ hnd.1 hb

lemma prepareOutput_ok {resolve : String → D} {F F1 : Folders D} {cfg : Dict Yaml} {root : String}
    (h : prepareOutput resolve F cfg = .ok (F1, root)) :
    dget cfg "out_dir" = some (.scalar (.str root)) ∧
    (resuming cfg = false → F.present (resolve root) = false) ∧
    (∀ x, F1.present x = true ↔ x = resolve root ∨ F.present x = true) ∧ F1.job = F.job := by
  unfold prepareOutput at h
  generalize ho : dget cfg "out_dir" = o at h
  match o, h with
  | some (.scalar (.str p)), h =>
    simp only at h ⊢
    by_cases hp : F.present (resolve p) = true ∧ resuming cfg = false
    · rw [if_pos hp] at h; simp at h
    · rw [if_neg hp] at h
      simp only [Except.ok.injEq, Prod.mk.injEq] at h
      obtain ⟨rfl, rfl⟩ := h
      refine ⟨rfl, ?_, ?_, rfl⟩
      · intro hr
        by_contra hne
        exact hp ⟨by simpa using hne, hr⟩
      · intro x; simp

/-- The multi-job part of `constructFileList`, given the preprocessor after the ensemble. -/
lemma construct_split {resolve : String → D} {rt : Yaml → Yaml} {seeds : ℕ → ℕ} {F : Folders D}
    {cfg : Dict Yaml} {R : Expanded D} (h : constructFileList resolve rt seeds F cfg = .ok R) :
    ¬ ("set" ∈ dkeys cfg ∧ "matrix" ∈ dkeys cfg) ∧
    ∃ P : Pp, (if "ensemble" ∈ dkeys cfg then
        expandEnsemble seeds ⟨cfg, true, "set" ∈ dkeys cfg, "matrix" ∈ dkeys cfg⟩ = .ok P
      else P = ⟨cfg, false, "set" ∈ dkeys cfg, "matrix" ∈ dkeys cfg⟩) ∧
    (((P.hasEnsemble || P.hasSet || P.hasMatrix) = false ∧ R = ⟨P.cfg, [P.cfg], [.input], F⟩) ∨
     ((P.hasEnsemble || P.hasSet || P.hasMatrix) = true ∧ ∃ F1 root ds,
      prepareOutput resolve F P.cfg = .ok (F1, root) ∧
      (if P.hasMatrix then expandMatrix root P.cfg else expandSet root P.cfg) = .ok R.configs ∧
      R.configs ≠ [] ∧
      writeJobs resolve rt (resuming P.cfg) F1 R.configs = .ok (R.disk, ds) ∧
      R.sources = ds.map .folder ∧
      R.cfg = ddel P.cfg (if P.hasMatrix then "matrix" else "set"))) := by
  unfold constructFileList at h
  by_cases h0 : "set" ∈ dkeys cfg ∧ "matrix" ∈ dkeys cfg
  · simp [prelimParse, h0] at h
  refine ⟨h0, ?_⟩
  simp only [prelimParse, if_neg h0] at h
  have key : ∃ P : Pp, (if "ensemble" ∈ dkeys cfg then
        expandEnsemble seeds ⟨cfg, true, "set" ∈ dkeys cfg, "matrix" ∈ dkeys cfg⟩ = .ok P
      else P = ⟨cfg, false, "set" ∈ dkeys cfg, "matrix" ∈ dkeys cfg⟩) ∧
      (if decide ("ensemble" ∈ dkeys cfg) = true then
        expandEnsemble seeds ⟨cfg, "ensemble" ∈ dkeys cfg, "set" ∈ dkeys cfg, "matrix" ∈ dkeys cfg⟩
      else .ok ⟨cfg, "ensemble" ∈ dkeys cfg, "set" ∈ dkeys cfg, "matrix" ∈ dkeys cfg⟩) = .ok P := by
    by_cases he : "ensemble" ∈ dkeys cfg
    · simp only [he, if_true, decide_true] at h ⊢
      generalize hx : expandEnsemble seeds ⟨cfg, true, "set" ∈ dkeys cfg, "matrix" ∈ dkeys cfg⟩ = r at h
      cases r with
      | error e => simp at h
      | ok P => exact ⟨P, rfl, rfl⟩
    · simp only [he, if_false, decide_false]
      exact ⟨_, rfl, by simp⟩
  obtain ⟨P, hP, hP'⟩ := key
  refine ⟨P, hP, ?_⟩
  rw [hP'] at h
  simp only at h
  by_cases hm : (P.hasEnsemble || P.hasSet || P.hasMatrix) = true
  · rw [if_pos hm] at h
    refine Or.inr ⟨hm, ?_⟩
    generalize hp : prepareOutput resolve F P.cfg = r at h
    match r, h with
    | .ok (F1, root), h =>
      simp only at h
      generalize hx : (if P.hasMatrix = true then expandMatrix root P.cfg else expandSet root P.cfg) = r at h
      match r, h with
      | .ok configs, h =>
        simp only at h
        by_cases hl : configs.length = 0
        · rw [if_pos hl] at h; simp at h
        rw [if_neg hl] at h
        generalize hw : writeJobs resolve rt (resuming P.cfg) F1 configs = r at h
        match r, h with
        | .ok (F2, ds), h =>
          simp only [Except.ok.injEq] at h
          subst h
          exact ⟨F1, root, ds, rfl, hx, fun e => hl (by simpa using congrArg List.length e), hw, rfl, rfl⟩
  · rw [if_neg hm] at h
    simp only [Except.ok.injEq] at h
    exact Or.inl ⟨by simpa using hm, h.symm⟩

/-! ## C57 -/

/-- C57: with a matrix, the jobs are exactly the combinations of the listed values over the other
parameters, each once. -/
theorem C57_product {resolve : String → D} {rt : Yaml → Yaml} {seeds : ℕ → ℕ} {F : Folders D}
    {cfg : Dict Yaml} {R : Expanded D} (h : constructFileList resolve rt seeds F cfg = .ok R)
    {m : Dict Yaml} (hm : dget cfg "matrix" = some (.dict m)) (hk : Keyed m)
    (he : "ensemble" ∉ dkeys cfg) :
    ∃ root vals, dget cfg "out_dir" = some (.scalar (.str root)) ∧ Lists m vals ∧
      MatrixJobs root (without (dget cfg) "matrix") vals R.configs := by
  obtain ⟨h0, P, hP, hR⟩ := construct_split h
  rw [if_neg he] at hP
  have hmk : "matrix" ∈ dkeys cfg := mem_dkeys.2 ⟨_, hm⟩
  subst hP
  simp only [hmk, decide_true, Bool.or_true, Bool.true_eq_false, false_and, false_or, true_and,
    if_true] at hR
  obtain ⟨F1, root, ds, hp, hx, -⟩ := hR
  obtain ⟨ho, -⟩ := prepareOutput_ok hp
  obtain ⟨-, -, -, vals, hl, hj⟩ := expandMatrix_ok hx hm hk
  refine ⟨root, vals, ho, hl, ?_⟩
  have e : dget (ddel cfg "matrix") = without (dget cfg) "matrix" := by
    funext k; rw [dget_ddel]; rfl
  rw [e] at hj
  exact hj

/-- C57: the number of jobs is the product of the numbers of listed values. -/
theorem C57_count {resolve : String → D} {rt : Yaml → Yaml} {seeds : ℕ → ℕ} {F : Folders D}
    {cfg : Dict Yaml} {R : Expanded D} (h : constructFileList resolve rt seeds F cfg = .ok R)
    {m : Dict Yaml} (hm : dget cfg "matrix" = some (.dict m)) (hk : Keyed m)
    (he : "ensemble" ∉ dkeys cfg) :
    ∃ vals, Lists m vals ∧ R.configs.length = (vals.map (fun p => p.2.length)).prod := by
  obtain ⟨root, vals, -, hl, ixs, hn, hmem, hlen, -⟩ := C57_product h hm hk he
  refine ⟨vals, hl, ?_⟩
  have hperm : ixs.Perm (ixCombos vals) :=
    (List.perm_ext_iff_of_nodup hn (nodup_ixCombos _)).2 (fun ix => by rw [hmem, mem_ixCombos])
  rw [hlen, hperm.length_eq]
  clear hlen hperm hmem hn hl
  induction vals with
  | nil => rfl
  | cons p vals ih =>
    obtain ⟨a, l⟩ := p
    simp only [ixCombos, List.length_flatMap, List.length_map, List.map_cons, List.prod_cons, ← ih]
    simp

/-! ## Keys of dictionaries -/

lemma keyed_cons {V : Type*} {a : String} {v : V} {d : Dict V} :
    Keyed ((a, v) :: d) ↔ a ∉ dkeys d ∧ Keyed d := by
  unfold Keyed dkeys
  simp

lemma mem_dkeys_dset {V : Type*} {d : Dict V} {a : String} {v : V} {k : String} :
    k ∈ dkeys (dset d a v) ↔ k = a ∨ k ∈ dkeys d := by
  rw [mem_dkeys, mem_dkeys]
  simp only [dget_dset]
  by_cases h : k = a <;> simp [h]

lemma keyed_dset {V : Type*} {d : Dict V} (h : Keyed d) (a : String) (v : V) : Keyed (dset d a v) := by
  induction d with
  | nil => simp [dset, Keyed, dkeys]
  | cons p d ih =>
    obtain ⟨b, w⟩ := p
    have h' := keyed_cons.1 h
    unfold dset
    split_ifs with hb
    · exact keyed_cons.2 h'
    · refine keyed_cons.2 ⟨?_, ih h'.2⟩
      rw [mem_dkeys_dset, not_or]
      exact ⟨hb, h'.1⟩

lemma keyed_dupdate {V : Type*} {d e : Dict V} (h : Keyed d) : Keyed (dupdate d e) := by
  induction e generalizing d with
  | nil => exact h
  | cons p e ih => exact ih (keyed_dset h p.1 p.2)

lemma keyed_ddel {V : Type*} {d : Dict V} (h : Keyed d) (a : String) : Keyed (ddel d a) := by
  unfold Keyed dkeys ddel at *
  exact (List.filter_sublist.map _).nodup h

lemma dset_of_not_mem {V : Type*} {d : Dict V} {a : String} {v : V} (h : a ∉ dkeys d) :
    dset d a v = d ++ [(a, v)] := by
  induction d with
  | nil => rfl
  | cons p d ih =>
    obtain ⟨b, w⟩ := p
    simp only [dkeys, List.map_cons, List.mem_cons, not_or] at h
    unfold dset
    rw [if_neg (Ne.symm h.1), ih h.2]; rfl

lemma dget_map {V U : Type*} (f : V → U) (d : Dict V) (k : String) :
    dget (d.map (fun q => (q.1, f q.2))) k = (dget d k).map f := by
  induction d with
  | nil => rfl
  | cons p d ih =>
    obtain ⟨b, w⟩ := p
    simp only [List.map_cons, dget]
    split_ifs <;> simp [ih]

lemma keyed_map {V U : Type*} {f : V → U} {d : Dict V} (h : Keyed d) :
    Keyed (d.map (fun q => (q.1, f q.2))) := by
  unfold Keyed dkeys at *
  simpa [List.map_map, Function.comp_def] using h

/-! ## Sets -/

lemma checkSets_ok : ∀ {l : List Yaml} {ds : List (Dict Yaml)}, checkSets l = .ok ds →
    l = ds.map .dict ∧ ∀ d ∈ ds, ∀ k ∈ dkeys d, ':' ∉ k.toList
  | [], ds, h => by
    simp only [checkSets, Except.ok.injEq] at h
    subst h
    simp
  | y :: ys, ds, h => by
    unfold checkSets at h
    match y, h with
    | .dict d, h =>
      simp only [Yaml.asDict] at h
      generalize hf : (dkeys d).find? (fun k => decide (':' ∈ k.toList)) = o at h
      cases o with
      | some k => simp at h
      | none =>
        simp only at h
        generalize hc : checkSets ys = r at h
        cases r with
        | error e => simp at h
        | ok es =>
          simp only [Except.ok.injEq] at h
          subst h
          obtain ⟨a, b⟩ := checkSets_ok hc
          refine ⟨by simp [a], ?_⟩
          intro d' hd'
          rcases List.mem_cons.1 hd' with rfl | hd'
          · intro k hk hcol
            have := List.find?_eq_none.1 hf k hk
            simp [hcol] at this
          · exact b d' hd'
    | .scalar _, h => simp [Yaml.asDict] at h
    | .list _, h => simp [Yaml.asDict] at h

lemma sameKeys_iff {d e : Dict Yaml} : sameKeys d e = true ↔ ∀ k, k ∈ dkeys d ↔ k ∈ dkeys e := by
  unfold sameKeys
  simp only [Bool.and_eq_true, List.all_eq_true, decide_eq_true_eq]
  exact ⟨fun h k => ⟨h.1 k, h.2 k⟩, fun h => ⟨fun k => (h k).1, fun k => (h k).2⟩⟩

/-- Specification: `configs` are the jobs of the sets `ds` over `fixed` in this order; a job has its own
path below `root`, unless the set names another. -/
def SetJobs (root : String) (fixed : String → Option Yaml) (ds configs : List (Dict Yaml)) : Prop :=
  configs.length = ds.length ∧
  ∀ (i : ℕ) (d c : Dict Yaml), ds[i]? = some d → configs[i]? = some c →
    (∀ k, k ≠ "out_dir" → dget c k = over fixed (dget d) k) ∧
    dget c "out_dir" = over (fun _ => some (.scalar (.str (pathJoin root (jobId i))))) (dget d) "out_dir"

lemma setJobs {root : String} {fixed : Dict Yaml} {ds : List (Dict Yaml)} (hk : ∀ d ∈ ds, Keyed d) :
    SetJobs root (dget fixed) ds (jobConfigs root fixed 0 ds) := by
  refine ⟨jobConfigs_length _ _ _ _, ?_⟩
  intro i d c hd hc
  rw [jobConfigs_get, hd] at hc
  simp only [Option.map_some, Option.some.injEq, Nat.zero_add] at hc
  subst hc
  have hkd := hk d (List.mem_of_getElem? hd)
  refine ⟨fun k hk => jobConfig_get hkd i (Or.inl hk), ?_⟩
  by_cases ho : "out_dir" ∈ dkeys d
  · rw [jobConfig_get hkd i (Or.inr ho)]
    obtain ⟨v, hv⟩ := mem_dkeys.1 ho
    simp [over, hv]
  · rw [jobConfig_out hkd i ho]
    simp [over, dget_none.2 ho]

lemma expandSet_ok {root : String} {cfg : Dict Yaml} {configs : List (Dict Yaml)}
    (h : expandSet root cfg = .ok configs) :
    ∃ ds, dget cfg "set" = some (.list (ds.map .dict)) ∧ ds ≠ [] ∧
      (∀ d ∈ ds, ∀ e ∈ ds, ∀ k, k ∈ dkeys d ↔ k ∈ dkeys e) ∧
      (∀ d ∈ ds, ∀ k ∈ dkeys d, ':' ∉ k.toList) ∧
      configs = jobConfigs root (ddel cfg "set") 0 ds := by
  unfold expandSet at h
  generalize hs : dget cfg "set" = o at h
  match o, h with
  | some (.list l), h =>
    simp only at h
    generalize hc : checkSets l = r at h
    match r, h with
    | .ok (d :: ds), h =>
      simp only at h
      by_cases ha : ds.all (fun e => sameKeys d e) = true
      · rw [if_pos ha] at h
        simp only [Except.ok.injEq] at h
        obtain ⟨h1, h2⟩ := checkSets_ok hc
        have key : ∀ e ∈ d :: ds, ∀ k, k ∈ dkeys d ↔ k ∈ dkeys e := by
          intro e he
          rcases List.mem_cons.1 he with rfl | he
          · exact fun k => Iff.rfl
          · exact sameKeys_iff.1 (List.all_eq_true.1 ha e he)
        refine ⟨d :: ds, by rw [h1], by simp, ?_, h2, h.symm⟩
        intro x hx y hy k
        rw [← key x hx k, ← key y hy k]
      · rw [if_neg ha] at h; simp at h

/-! ## C60 -/

/-- C60: with a set, there is one job for each listed set, in order, with the parameters of that set over
the fixed ones; all sets have the same keys. -/
theorem C60_set {resolve : String → D} {rt : Yaml → Yaml} {seeds : ℕ → ℕ} {F : Folders D}
    {cfg : Dict Yaml} {R : Expanded D} (h : constructFileList resolve rt seeds F cfg = .ok R)
    (hs : "set" ∈ dkeys cfg) (he : "ensemble" ∉ dkeys cfg)
    (hk : ∀ l, dget cfg "set" = some (.list l) → ∀ d, .dict d ∈ l → Keyed d) :
    ∃ root ds, dget cfg "out_dir" = some (.scalar (.str root)) ∧
      dget cfg "set" = some (.list (ds.map .dict)) ∧
      SetJobs root (without (dget cfg) "set") ds R.configs ∧
      ∀ d ∈ ds, ∀ e ∈ ds, ∀ k, k ∈ dkeys d ↔ k ∈ dkeys e := by
  obtain ⟨h0, P, hP, hR⟩ := construct_split h
  rw [if_neg he] at hP
  have hm : "matrix" ∉ dkeys cfg := fun hm => h0 ⟨hs, hm⟩
  subst hP
  simp only [hs, hm, decide_true, decide_false, Bool.or_true, Bool.true_or, Bool.true_eq_false,
    false_and, false_or, true_and, if_false, Bool.or_false, Bool.false_eq_true] at hR
  obtain ⟨F1, root, ds', hp, hx, -⟩ := hR
  obtain ⟨ho, -⟩ := prepareOutput_ok hp
  obtain ⟨ds, hd, -, hkeys, -, hc⟩ := expandSet_ok hx
  refine ⟨root, ds, ho, hd, ?_, hkeys⟩
  have e : dget (ddel cfg "set") = without (dget cfg) "set" := by
    funext k; rw [dget_ddel]; rfl
  rw [hc, ← e]
  exact setJobs (fun d hmem => hk _ hd d (List.mem_map.2 ⟨d, hmem, rfl⟩))

/-- C60: sets with different keys are rejected. -/
theorem C60_rejected {resolve : String → D} {rt : Yaml → Yaml} {seeds : ℕ → ℕ} {F : Folders D}
    {cfg : Dict Yaml} {l : List Yaml} (hs : dget cfg "set" = some (.list l))
    (he : "ensemble" ∉ dkeys cfg) {d e : Dict Yaml} (hd : .dict d ∈ l) (hd' : .dict e ∈ l)
    {k : String} (hk : k ∈ dkeys d) (hk' : k ∉ dkeys e) :
    ∃ er, constructFileList resolve rt seeds F cfg = .error er := by
  cases h : constructFileList resolve rt seeds F cfg with
  | error er => exact ⟨er, rfl⟩
  | ok R =>
    exfalso
    obtain ⟨h0, P, hP, hR⟩ := construct_split h
    rw [if_neg he] at hP
    have hsk : "set" ∈ dkeys cfg := mem_dkeys.2 ⟨_, hs⟩
    have hm : "matrix" ∉ dkeys cfg := fun hm => h0 ⟨hsk, hm⟩
    subst hP
    simp only [hsk, hm, decide_true, decide_false, Bool.or_true, Bool.true_or, Bool.true_eq_false,
      false_and, false_or, true_and, if_false, Bool.or_false, Bool.false_eq_true] at hR
    obtain ⟨F1, root, ds', hp, hx, -⟩ := hR
    obtain ⟨ds, hds, -, hkeys, -, -⟩ := expandSet_ok hx
    rw [hs] at hds
    obtain rfl : l = ds.map .dict := by simpa using hds
    have hdm : ∀ x : Dict Yaml, Yaml.dict x ∈ ds.map Yaml.dict → x ∈ ds := by
      intro x hx
      obtain ⟨y, hy, e⟩ := List.mem_map.1 hx
      cases e; exact hy
    exact hk' ((hkeys d (hdm d hd) e (hdm e hd') k).1 hk)

end Verif.Props
