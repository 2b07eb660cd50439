import Verif.Model.Table
import Verif.Props.Ensemble

/-!
# C87: the table of the jobs
-/

set_option linter.unusedSectionVars false
set_option linter.unusedSimpArgs false

namespace Verif.Props

open Verif.Model Verif.Spec

variable {D : Type*} [DecidableEq D]

/-- Specification: under each name the row has the value the configuration has for it. -/
def Tells (names : List String) (row : List Yaml) (c : Dict Yaml) : Prop :=
  names.map (dget c) = row.map some

/-- Specification: the table has a row for every job, with its identifier and its values, and names everything but the
folder in which jobs differ. -/
def TableOf (T : JobTable) (configs : List (Dict Yaml)) : Prop :=
  T.rows.length = configs.length ∧
  (∀ i row c, T.rows[i]? = some row → configs[i]? = some c → row.1 = jobId i ∧ Tells T.header row.2 c) ∧
  ∀ c ∈ configs, ∀ c' ∈ configs, ∀ k, dget c k ≠ dget c' k → k = "out_dir" ∨ k ∈ T.header

lemma tableRows_length (i : ℕ) (vs : List (Dict Yaml)) : (tableRows i vs).length = vs.length := by
  induction vs generalizing i with
  | nil => rfl
  | cons v vs ih => simp [tableRows, ih]

lemma tableRows_get (i : ℕ) (vs : List (Dict Yaml)) (j : ℕ) :
    (tableRows i vs)[j]? = (vs[j]?).map (fun v => (jobId (i + j), v.map Prod.snd)) := by
  induction vs generalizing i j with
  | nil => simp [tableRows]
  | cons v vs ih =>
    cases j with
    | zero => simp [tableRows]
    | succ j =>
      simp only [tableRows, List.getElem?_cons_succ, ih]
      rw [show i + 1 + j = i + (j + 1) by omega]

lemma dget_keys {V : Type*} : ∀ {d : Dict V}, Keyed d → (dkeys d).map (dget d) = d.map (fun p => some p.2)
  | [], _ => rfl
  | (a, v) :: d, h => by
    obtain ⟨h1, h2⟩ := keyed_cons.1 h
    have ih := dget_keys h2
    simp only [dkeys, List.map_cons, List.cons.injEq]
    refine ⟨by simp [dget], ?_⟩
    rw [← ih]
    simp only [dkeys, List.map_map]
    refine List.map_congr_left fun p hp => ?_
    have : a ≠ p.1 := by
      rintro rfl
      exact h1 (List.mem_map.2 ⟨p, hp, rfl⟩)
    simp [dget, this]

lemma row_tells {root : String} {fixed v : Dict Yaml} (hv : Keyed v) (i : ℕ) :
    Tells (dkeys v) (v.map Prod.snd) (jobConfig root fixed i v) := by
  unfold Tells
  rw [List.map_map]
  have := dget_keys hv
  simp only [Function.comp_def]
  rw [← this]
  refine List.map_congr_left fun k hk => ?_
  rw [jobConfig_get hv i (Or.inr hk)]
  obtain ⟨x, hx⟩ := mem_dkeys.1 hk
  simp [over, hx]

lemma jobs_differ {root : String} {fixed : Dict Yaml} {vs : List (Dict Yaml)} (hk : ∀ v ∈ vs, Keyed v)
    {names : List String} (hn : ∀ v ∈ vs, ∀ k, k ∈ dkeys v → k ∈ names) :
    ∀ c ∈ jobConfigs root fixed 0 vs, ∀ c' ∈ jobConfigs root fixed 0 vs, ∀ k, dget c k ≠ dget c' k →
      k = "out_dir" ∨ k ∈ names := by
  have key : ∀ c ∈ jobConfigs root fixed 0 vs, ∀ k, k ≠ "out_dir" → k ∉ names → dget c k = dget fixed k := by
    intro c hc k h1 h2
    obtain ⟨i, hi⟩ := List.mem_iff_getElem?.1 hc
    rw [jobConfigs_get] at hi
    obtain ⟨v, hv, rfl⟩ := Option.map_eq_some_iff.1 hi
    have hvm := List.mem_of_getElem? hv
    rw [jobConfig_get (hk v hvm) _ (Or.inl h1)]
    have : dget v k = none := dget_none.2 fun h => h2 (hn v hvm k h)
    simp [over, this]
  intro c hc c' hc' k hne
  by_contra hcon
  push Not at hcon
  exact hne (by rw [key c hc k hcon.1 hcon.2, key c' hc' k hcon.1 hcon.2])

lemma table_of {root : String} {fixed : Dict Yaml} {vs : List (Dict Yaml)} {names : List String}
    (hk : ∀ v ∈ vs, Keyed v) (hn : ∀ v ∈ vs, dkeys v = names) :
    TableOf ⟨names, tableRows 0 vs⟩ (jobConfigs root fixed 0 vs) := by
  refine ⟨by rw [jobConfigs_length]; exact tableRows_length 0 vs, ?_, ?_⟩
  · intro i row c hr hc
    simp only [tableRows_get] at hr
    rw [jobConfigs_get] at hc
    obtain ⟨v, hv, rfl⟩ := Option.map_eq_some_iff.1 hr
    rw [hv] at hc
    simp only [Option.map_some, Option.some.injEq, Nat.zero_add] at hc
    subst hc
    have hvm := List.mem_of_getElem? hv
    refine ⟨by simp, ?_⟩
    rw [← hn v hvm]
    exact row_tells (hk v hvm) i
  · exact jobs_differ hk fun v hv k hkk => by rw [← hn v hv]; exact hkk

lemma combos_dkeys {V : Type*} : ∀ (m : Dict (List V)), ∀ c ∈ combos m, dkeys c = m.map Prod.fst
  | [], c, hc => by simp only [combos, List.mem_singleton] at hc; subst hc; rfl
  | (k, l) :: m, c, hc => by
    simp only [combos, List.mem_flatMap, List.mem_map] at hc
    obtain ⟨v, -, c', hc', rfl⟩ := hc
    have := combos_dkeys m c' hc'
    simp only [dkeys, List.map_cons] at this ⊢
    rw [this]

lemma matrixTable_ok {root : String} {cfg : Dict Yaml} {configs : List (Dict Yaml)}
    (h : expandMatrix root cfg = .ok configs) (hk : ∀ m, dget cfg "matrix" = some (.dict m) → Keyed m) :
    ∃ T, matrixTable cfg = some T ∧ TableOf T configs := by
  unfold expandMatrix at h
  unfold matrixTable
  match hm : dget cfg "matrix", h with
  | some (.dict m), h =>
    simp only at h ⊢
    by_cases h1 : "out_dir" ∈ dkeys m
    · rw [if_pos h1] at h; cases h
    rw [if_neg h1] at h ⊢
    generalize hc : checkMatrix (ddel cfg "matrix") m = r at h ⊢
    match r, h with
    | .ok (v :: vs), h =>
      simp only [Except.ok.injEq] at h
      subst h
      refine ⟨_, rfl, table_of ?_ (fun c hc => combos_dkeys _ c hc)⟩
      intro c hcm
      have hl : Lists m (v :: vs) := (checkMatrix_ok hc).1
      have := hl.keys
      unfold Keyed
      rw [combos_dkeys _ c hcm]
      have e : List.map Prod.fst (v :: vs) = dkeys m := this
      rw [e]
      exact hk m hm

lemma setTable_ok {root : String} {cfg : Dict Yaml} {configs : List (Dict Yaml)}
    (h : expandSet root cfg = .ok configs) :
    ∃ d ds, dget cfg "set" = some (.list ((d :: ds).map .dict)) ∧
      setTable cfg = some ⟨dkeys d, tableRows 0 (d :: ds)⟩ ∧
      (∀ e ∈ d :: ds, ∀ k, k ∈ dkeys d ↔ k ∈ dkeys e) ∧
      configs = jobConfigs root (ddel cfg "set") 0 (d :: ds) := by
  unfold expandSet at h
  unfold setTable
  match hs : dget cfg "set", h with
  | some (.list l), h =>
    simp only at h ⊢
    generalize hc : checkSets l = r at h ⊢
    match r, h with
    | .ok (d :: ds), h =>
      simp only at h ⊢
      by_cases ha : ds.all (fun e => sameKeys d e) = true
      · rw [if_pos ha] at h ⊢
        simp only [Except.ok.injEq] at h
        refine ⟨d, ds, by rw [(checkSets_ok hc).1], rfl, ?_, h.symm⟩
        intro e he
        rcases List.mem_cons.1 he with rfl | he
        · exact fun k => Iff.rfl
        · exact sameKeys_iff.1 (List.all_eq_true.1 ha e he)
      · rw [if_neg ha] at h; cases h

lemma jobsTable_eq {seeds : ℕ → ℕ} {cfg : Dict Yaml} {P : Pp}
    (h0 : ¬ ("set" ∈ dkeys cfg ∧ "matrix" ∈ dkeys cfg))
    (hP : if "ensemble" ∈ dkeys cfg then
        expandEnsemble seeds ⟨cfg, true, "set" ∈ dkeys cfg, "matrix" ∈ dkeys cfg⟩ = .ok P
      else P = ⟨cfg, false, "set" ∈ dkeys cfg, "matrix" ∈ dkeys cfg⟩) :
    jobsTable seeds cfg = if P.hasMatrix then matrixTable P.cfg else if P.hasSet then setTable P.cfg else none := by
  unfold jobsTable
  simp only [prelimParse, if_neg h0]
  by_cases he : "ensemble" ∈ dkeys cfg
  · rw [if_pos he] at hP
    simp only [he, decide_true, if_true, hP]
  · rw [if_neg he] at hP
    subst hP
    simp only [he, decide_false, Bool.false_eq_true, if_false]

lemma expandSets_dset {seeds : ℕ → ℕ} {n : ℕ} : ∀ {l l' : List Yaml} {c : ℕ}, expandSets seeds n c l = .ok l' →
    ∀ y ∈ l', ∃ d s, .dict d ∈ l ∧ y = .dict (dset d "seed" s)
  | [], l', c, h, y, hy => by
    simp only [expandSets, Except.ok.injEq] at h
    subst h; simp at hy
  | x :: xs, l', c, h, y, hy => by
    unfold expandSets at h
    by_cases hn : n = 0
    · rw [if_pos hn] at h
      obtain ⟨d, s, h1, h2⟩ := expandSets_dset h y hy
      exact ⟨d, s, List.mem_cons_of_mem _ h1, h2⟩
    rw [if_neg hn] at h
    match x, h with
    | .dict d, h =>
      simp only [Yaml.asDict] at h
      generalize hx : expandSets seeds n (c + n) xs = r at h
      cases r with
      | error e => simp at h
      | ok zs =>
        simp only [Except.ok.injEq] at h
        subst h
        rcases List.mem_append.1 hy with hy | hy
        · obtain ⟨j, -, rfl⟩ := List.mem_map.1 hy
          exact ⟨d, _, List.mem_cons_self, rfl⟩
        · obtain ⟨d, s, h1, h2⟩ := expandSets_dset hx y hy
          exact ⟨d, s, List.mem_cons_of_mem _ h1, h2⟩
    | .scalar _, h => simp [Yaml.asDict] at h
    | .list _, h => simp [Yaml.asDict] at h

/-- What the ensemble does to a matrix or to the sets. -/
lemma ens_parts {seeds : ℕ → ℕ} {P P' : Pp} (h : expandEnsemble seeds P = .ok P') :
    (∀ m', dget P'.cfg "matrix" = some (.dict m') → ∃ m s, m' = dset m "seed" s ∧
        (dget P.cfg "matrix" = some (.dict m) ∨ m = []) ∨ dget P.cfg "matrix" = some (.dict m')) ∧
    (∀ l', dget P'.cfg "set" = some (.list l') → ∃ l, dget P.cfg "set" = some (.list l) ∧
      (l' = l ∨ ∀ y ∈ l', ∃ d s, .dict d ∈ l ∧ y = .dict (dset d "seed" s))) ∧
    P'.hasSet = P.hasSet ∧ (P.hasSet = true → P'.hasMatrix = P.hasMatrix) := by
  unfold expandEnsemble at h
  generalize he : dget P.cfg "ensemble" = o at h
  cases o with
  | none =>
    simp only [Except.ok.injEq] at h; subst h
    exact ⟨fun m' hm => ⟨[], .scalar .null, Or.inr hm⟩, fun l' hl => ⟨l', hl, Or.inl rfl⟩, rfl, fun _ => rfl⟩
  | some y =>
    simp only at h
    generalize hn : y.asInt = o at h
    cases o with
    | none => simp at h
    | some n =>
      simp only at h
      by_cases e1 : n = 1
      · rw [if_pos e1] at h
        simp only [Except.ok.injEq] at h
        subst h
        simp only [dget_ddel]
        refine ⟨fun m' hm => ⟨[], .scalar .null, Or.inr (by simpa using hm)⟩,
          fun l' hl => ⟨l', by simpa using hl, Or.inl rfl⟩, trivial, fun _ => trivial⟩
      rw [if_neg e1] at h
      by_cases hs : P.hasSet = true
      · rw [if_pos hs] at h
        generalize hd : dget (ddel P.cfg "ensemble") "set" = o at h
        match o, h with
        | some (.list l), h =>
          simp only at h
          generalize hx : expandSets seeds n.toNat 0 l = r at h
          cases r with
          | error e => simp at h
          | ok l' =>
            simp only [Except.ok.injEq] at h
            subst h
            rw [dget_ddel, if_neg (by decide)] at hd
            simp only [dget_dset, dget_ddel]
            refine ⟨fun m' hm => ⟨[], .scalar .null, Or.inr (by simpa using hm)⟩, ?_, trivial, fun _ => trivial⟩
            intro l'' hl
            simp only [if_true, Option.some.injEq, Yaml.list.injEq] at hl
            subst hl
            exact ⟨l, hd, Or.inr (expandSets_dset hx)⟩
      · rw [if_neg hs] at h
        generalize hd : (dget (ddel P.cfg "ensemble") "matrix").getD (.dict []) = o at h
        match o, h with
        | .dict m, h =>
          simp only at h
          by_cases hm : "seed" ∈ dkeys m
          · rw [if_pos hm] at h; simp at h
          · rw [if_neg hm] at h
            simp only [Except.ok.injEq] at h
            subst h
            rw [dget_ddel, if_neg (by decide)] at hd
            simp only [dget_dset, dget_ddel]
            refine ⟨?_, fun l' hl => ⟨l', by simpa using hl, Or.inl rfl⟩, trivial, fun h => absurd h hs⟩
            intro m' hm'
            simp only [if_true, Option.some.injEq, Yaml.dict.injEq] at hm'
            refine ⟨m, _, Or.inl ⟨hm'.symm, ?_⟩⟩
            cases ho : dget P.cfg "matrix" with
            | none => rw [ho] at hd; simp only [Option.getD_none, Yaml.dict.injEq] at hd; exact Or.inr hd.symm
            | some x => rw [ho] at hd; simp only [Option.getD_some] at hd; rw [hd]; exact Or.inl rfl

/-- C87: with a matrix or an ensemble of a matrix the table tells of every job its values. -/
theorem C87_matrix {resolve : String → D} {rt : Yaml → Yaml} {seeds : ℕ → ℕ} {F : Folders D}
    {cfg : Dict Yaml} {R : Expanded D} (h : constructFileList resolve rt seeds F cfg = .ok R)
    {ds : List D} (hm : Multi R ds) (hs : "set" ∉ dkeys cfg)
    (hk : ∀ m, dget cfg "matrix" = some (.dict m) → Keyed m) :
    ∃ T, jobsTable seeds cfg = some T ∧ TableOf T R.configs := by
  obtain ⟨h0, P, hP, hR⟩ := construct_split h
  rw [jobsTable_eq h0 hP]
  rcases hR with ⟨-, rfl⟩ | ⟨hmul, F1, root, ds', -, hx, -⟩
  · unfold Multi at hm
    cases ds <;> simp at hm
  have hset : P.hasSet = false := by
    by_cases he : "ensemble" ∈ dkeys cfg
    · rw [if_pos he] at hP
      rw [(ens_parts hP).2.2.1]; simpa using hs
    · rw [if_neg he] at hP; subst hP; simpa using hs
  have hkP : ∀ m, dget P.cfg "matrix" = some (.dict m) → Keyed m := by
    intro m hmm
    by_cases he : "ensemble" ∈ dkeys cfg
    · rw [if_pos he] at hP
      obtain ⟨m0, s, h1⟩ := (ens_parts hP).1 m hmm
      rcases h1 with ⟨rfl, h1 | rfl⟩ | h1
      · exact keyed_dset (hk _ h1) _ _
      · exact keyed_dset (by simp [Keyed, dkeys]) _ _
      · exact hk _ h1
    · rw [if_neg he] at hP; subst hP; exact hk _ hmm
  by_cases hM : P.hasMatrix = true
  · rw [if_pos hM] at hx ⊢
    exact matrixTable_ok hx hkP
  · exfalso
    rw [if_neg hM] at hx
    obtain ⟨d, ds'', h1, -⟩ := setTable_ok hx
    have : dget cfg "set" = none := dget_none.2 hs
    by_cases he : "ensemble" ∈ dkeys cfg
    · rw [if_pos he] at hP
      obtain ⟨l, h2, -⟩ := (ens_parts hP).2.1 _ h1
      simp only at h2
      rw [this] at h2; cases h2
    · rw [if_neg he] at hP; subst hP
      simp only at h1
      rw [this] at h1; cases h1

lemma dkeys_dset_congr {V : Type*} {d e : Dict V} (h : dkeys d = dkeys e) (a : String) (v w : V) :
    dkeys (dset d a v) = dkeys (dset e a w) := by
  by_cases ha : a ∈ dkeys d
  · have key : ∀ {d : Dict V} (v : V), a ∈ dkeys d → dkeys (dset d a v) = dkeys d := by
      intro d v
      induction d with
      | nil => intro h; simp [dkeys] at h
      | cons p d ih =>
        obtain ⟨b, x⟩ := p
        intro h
        by_cases hb : b = a
        · simp [dset, hb, dkeys]
        · have : a ∈ dkeys d := by
            simp only [dkeys, List.map_cons, List.mem_cons] at h
            rcases h with h | h
            · exact absurd h.symm hb
            · exact h
          have := ih this
          simp only [dkeys] at this
          simp [dset, hb, dkeys, this]
    rw [key v ha, key w (h ▸ ha), h]
  · rw [dset_of_not_mem ha, dset_of_not_mem (h ▸ ha)]
    simp only [dkeys, List.map_append] at h ⊢
    rw [h]
    rfl

/-- C87: with sets, also as an ensemble, the table tells of every job its values. Partial: C87 claims this for all sets;
here they list their keys in the same order. See `C87_order` for other sets. -/
theorem C87_set_partial {resolve : String → D} {rt : Yaml → Yaml} {seeds : ℕ → ℕ} {F : Folders D}
    {cfg : Dict Yaml} {R : Expanded D} (h : constructFileList resolve rt seeds F cfg = .ok R)
    {sets : List (Dict Yaml)} (hs : dget cfg "set" = some (.list (sets.map .dict))) (hk : ∀ d ∈ sets, Keyed d)
    (ho : ∀ d ∈ sets, ∀ e ∈ sets, dkeys d = dkeys e) :
    ∃ T, jobsTable seeds cfg = some T ∧ TableOf T R.configs := by
  obtain ⟨h0, P, hP, hR⟩ := construct_split h
  rw [jobsTable_eq h0 hP]
  have hsk : "set" ∈ dkeys cfg := mem_dkeys.2 ⟨_, hs⟩
  have hmk : "matrix" ∉ dkeys cfg := fun hm => h0 ⟨hsk, hm⟩
  have hset : P.hasSet = true ∧ P.hasMatrix = false := by
    by_cases he : "ensemble" ∈ dkeys cfg
    · rw [if_pos he] at hP
      obtain ⟨-, -, h1, h2⟩ := ens_parts hP
      have : P.hasSet = true := by rw [h1]; simpa using hsk
      exact ⟨this, by rw [h2 (by simpa using hsk)]; simpa using hmk⟩
    · rw [if_neg he] at hP; subst hP; exact ⟨by simpa using hsk, by simpa using hmk⟩
  rcases hR with ⟨hc, -⟩ | ⟨hmul, F1, root, ds', -, hx, -⟩
  · simp [hset.1] at hc
  rw [if_neg (by simp [hset.2])] at hx ⊢
  rw [if_pos hset.1]
  obtain ⟨d, ds, h1, h2, -, h3⟩ := setTable_ok hx
  refine ⟨_, h2, ?_⟩
  rw [h3]
  have key : ∀ x ∈ d :: ds, Keyed x ∧ ∀ y ∈ d :: ds, dkeys x = dkeys y := by
    by_cases he : "ensemble" ∈ dkeys cfg
    · rw [if_pos he] at hP
      obtain ⟨l, h4, h5⟩ := (ens_parts hP).2.1 _ h1
      simp only at h4
      rw [hs] at h4
      simp only [Option.some.injEq, Yaml.list.injEq] at h4
      subst h4
      rcases h5 with h5 | h5
      · have : d :: ds = sets := List.map_injective_iff.2 (fun a b hab => by cases hab; rfl) h5
        rw [this]
        exact fun x hx => ⟨hk x hx, ho x hx⟩
      · have key : ∀ x ∈ d :: ds, ∃ e ∈ sets, ∃ s, x = dset e "seed" s := by
          intro x hx
          obtain ⟨e, s, h6, h7⟩ := h5 (.dict x) (List.mem_map.2 ⟨x, hx, rfl⟩)
          obtain ⟨e', h8, h9⟩ := List.mem_map.1 h6
          cases h9
          exact ⟨_, h8, s, by cases h7; rfl⟩
        intro x hx
        obtain ⟨e, he1, s, rfl⟩ := key x hx
        refine ⟨keyed_dset (hk e he1) _ _, ?_⟩
        intro y hy
        obtain ⟨e', he2, s', rfl⟩ := key y hy
        exact dkeys_dset_congr (ho e he1 e' he2) _ _ _
    · rw [if_neg he] at hP
      subst hP
      simp only at h1
      rw [hs] at h1
      simp only [Option.some.injEq, Yaml.list.injEq] at h1
      have : sets = d :: ds := List.map_injective_iff.2 (fun a b hab => by cases hab; rfl) h1
      rw [← this]
      exact fun x hx => ⟨hk x hx, ho x hx⟩
  exact table_of (fun v hv => (key v hv).1) (fun v hv => (key v hv).2 d List.mem_cons_self)

lemma dget_pair {V : Type*} {d : Dict V} {k : String} {v : V} (h : dget d k = some v) : (k, v) ∈ d := by
  induction d with
  | nil => simp [dget] at h
  | cons p d ih =>
    obtain ⟨a, x⟩ := p
    by_cases ha : a = k
    · simp only [dget, ha, if_true, Option.some.injEq] at h
      subst h; subst ha
      exact List.mem_cons_self
    · simp only [dget, ha, if_false] at h
      exact List.mem_cons_of_mem _ (ih h)

/-- C87 fails for sets that list their keys in another order than the first: the values of such a set are under wrong
names, if they differ. -/
theorem C87_order {resolve : String → D} {rt : Yaml → Yaml} {seeds : ℕ → ℕ} {F : Folders D}
    {cfg : Dict Yaml} {R : Expanded D} (h : constructFileList resolve rt seeds F cfg = .ok R)
    (he : "ensemble" ∉ dkeys cfg) {d : Dict Yaml} {ds : List (Dict Yaml)}
    (hs : dget cfg "set" = some (.list ((d :: ds).map .dict))) (hk : ∀ e ∈ d :: ds, Keyed e)
    {i : ℕ} {e : Dict Yaml} (hi : (d :: ds)[i]? = some e) (ho : dkeys e ≠ dkeys d)
    (hv : ∀ p ∈ e, ∀ q ∈ e, p.2 = q.2 → p.1 = q.1) :
    ∃ T row c, jobsTable seeds cfg = some T ∧ T.rows[i]? = some row ∧ R.configs[i]? = some c ∧
      ¬ Tells T.header row.2 c := by
  obtain ⟨h0, P, hP, hR⟩ := construct_split h
  rw [jobsTable_eq h0 hP]
  have hsk : "set" ∈ dkeys cfg := mem_dkeys.2 ⟨_, hs⟩
  have hmk : "matrix" ∉ dkeys cfg := fun hm => h0 ⟨hsk, hm⟩
  rw [if_neg he] at hP
  subst hP
  simp only [hsk, hmk, decide_true, decide_false, Bool.or_true, Bool.true_or, Bool.true_eq_false,
    false_and, false_or, true_and, if_false, Bool.or_false, Bool.false_eq_true, if_true] at hR ⊢
  obtain ⟨F1, root, ds', hp, hx, -⟩ := hR
  obtain ⟨d', ds'', h1, h2, h3, h4⟩ := setTable_ok hx
  rw [hs] at h1
  simp only [Option.some.injEq, Yaml.list.injEq] at h1
  have e1 : d :: ds = d' :: ds'' := List.map_injective_iff.2 (fun a b hab => by cases hab; rfl) h1
  obtain ⟨rfl, rfl⟩ := List.cons.inj e1
  have hem := List.mem_of_getElem? hi
  refine ⟨_, (jobId i, e.map Prod.snd), jobConfig root (ddel cfg "set") i e, h2, ?_, ?_, ?_⟩
  · simp [tableRows_get, hi]
  · rw [h4, jobConfigs_get, hi]; simp
  · intro ht
    have hke := hk e hem
    have hd : ∀ k ∈ dkeys d, dget (jobConfig root (ddel cfg "set") i e) k = dget e k := by
      intro k hkk
      have hke' := (h3 e hem k).1 hkk
      rw [jobConfig_get hke i (Or.inr hke')]
      obtain ⟨x, hx⟩ := mem_dkeys.1 hke'
      simp [over, hx]
    have ht' : (dkeys d).map (dget e) = e.map (fun p => some p.2) := by
      unfold Tells at ht
      rw [List.map_map] at ht
      simp only [Function.comp_def] at ht
      rw [← ht]
      exact List.map_congr_left fun k hk => (hd k hk).symm
    rw [← dget_keys hke] at ht'
    apply ho
    refine (?_ : dkeys e = dkeys d)
    have hlen : (dkeys e).length = (dkeys d).length := by simpa using (congrArg List.length ht').symm
    refine List.ext_getElem hlen fun n hn1 hn2 => ?_
    have hn := congrArg (fun l => l[n]?) ht'
    simp only [List.getElem?_map, List.getElem?_eq_getElem hn1, List.getElem?_eq_getElem hn2, Option.map_some,
      Option.some.injEq] at hn
    obtain ⟨x, hx⟩ := mem_dkeys.1 (List.getElem_mem hn1)
    rw [hx] at hn
    have m1 := dget_pair hx
    have m2 := dget_pair hn
    exact hv _ m1 _ m2 rfl

/-- Two sets with their keys in another order: the second row has the value of `b` under `a`. -/
example : ∃ T : JobTable, jobsTable (fun _ => 0) [("out_dir", .scalar (.str "out")),
      ("set", .list [.dict [("a", .scalar (.int 1)), ("b", .scalar (.int 2))],
        .dict [("b", .scalar (.int 4)), ("a", .scalar (.int 3))]])] = some T ∧
    T.header = ["a", "b"] ∧ T.rows = [("job_000".toList, [.scalar (.int 1), .scalar (.int 2)]),
      ("job_001".toList, [.scalar (.int 4), .scalar (.int 3)])] :=
  ⟨_, rfl, rfl, rfl⟩

end Verif.Props
