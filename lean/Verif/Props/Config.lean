import Verif.Spec.Config
import Mathlib.Data.Finset.Insert

/-!
# C48, C49: values of a configuration and the report on unused keys
-/

set_option linter.unusedSectionVars false
set_option linter.unusedSimpArgs false

namespace Verif.Props

open Verif.Model Verif.Spec

variable {T V : Type*} [DecidableEq T]

/-! ## Dictionaries -/

lemma dget_dset (d : Dict V) (k : String) (v : V) (j : String) :
    dget (dset d k v) j = if j = k then some v else dget d j := by
  induction d with
  | nil => simp only [dset, dget, eq_comm]
  | cons p d ih =>
    obtain ⟨a, w⟩ := p
    unfold dset
    split_ifs with h1 h2 h2
    · subst h1; subst h2; simp [dget]
    · subst h1; simp [dget, Ne.symm h2]
    · subst h2; simp only [dget, if_neg h1, ih, if_true]
    · simp only [dget, ih, if_neg h2]

lemma mem_dkeys {d : Dict V} {k : String} : k ∈ dkeys d ↔ ∃ v, dget d k = some v := by
  induction d with
  | nil => simp [dkeys, dget]
  | cons p d ih =>
    obtain ⟨a, w⟩ := p
    unfold dkeys at ih ⊢
    simp only [List.map_cons, List.mem_cons, dget, ih]
    split_ifs with h
    · subst h; simp
    · simp [Ne.symm h]

lemma dget_none {d : Dict V} {k : String} : dget d k = none ↔ k ∉ dkeys d := by
  rw [mem_dkeys]
  cases h : dget d k <;> simp

lemma dget_ddel (d : Dict V) (k j : String) :
    dget (ddel d k) j = if j = k then none else dget d j := by
  induction d with
  | nil => simp [ddel, dget]
  | cons p d ih =>
    obtain ⟨a, w⟩ := p
    unfold ddel at ih ⊢
    by_cases ha : a = k
    · subst ha
      simp only [List.filter_cons, ne_eq, not_true, decide_false, Bool.false_eq_true, if_false]
      rw [ih]
      simp only [dget]
      by_cases h : j = a
      · simp [h]
      · rw [if_neg h, if_neg (Ne.symm h), if_neg h]
    · simp only [List.filter_cons, ne_eq, ha, not_false_iff, decide_true, if_true, dget]
      rw [ih]
      split_ifs with h1 h2 h2
      · subst h1; exact absurd h2 ha
      · rfl
      · rfl
      · rfl

/-- A key occurs once in a dictionary. -/
def Keyed (d : Dict V) : Prop := (dkeys d).Nodup

lemma mergeKw_get {user kw : Dict V} (hk : Keyed kw) (k : String) :
    dget (mergeKw user kw).1 k = supplied (dget user) (dget kw) k := by
  induction kw generalizing user with
  | nil => rfl
  | cons p kw ih =>
    obtain ⟨a, v⟩ := p
    have hnd : a ∉ dkeys kw ∧ Keyed kw := by
      unfold Keyed dkeys at hk ⊢
      simpa using hk
    simp only [mergeKw]
    rw [ih hnd.2]
    unfold supplied
    simp only [dget, dget_dset]
    by_cases h : a = k
    · subst h
      rw [dget_none.2 hnd.1]
      simp
    · rw [if_neg h, if_neg (Ne.symm h)]

/-! ## C48 -/

/-- The value of a parameter: supplied, else the default. -/
def effective (user : String → Option V) (e : Entry T V) (k : String) : V :=
  match user k with
  | some v => v
  | none => e.default

lemma populate_spec {ty : V → T} {user : Dict V} : ∀ {ds : Dict (Entry T V)} {vars : Dict V},
    populate ty user ds = .ok vars →
    dkeys vars = dkeys ds ∧
    (∀ k, dget vars k = (dget ds k).map (fun e => effective (dget user) e k)) ∧
    (∀ k e v, dget ds k = some e → dget user k = some v → some (ty v) ∈ e.types) := by
  intro ds
  induction ds with
  | nil =>
    intro vars h
    simp only [populate, Except.ok.injEq] at h
    subst h
    simp [dkeys, dget]
  | cons p ds ih =>
    obtain ⟨a, e⟩ := p
    intro vars h
    unfold populate at h
    cases hu : dget user a with
    | some v =>
      simp only [hu] at h
      split_ifs at h with ht
      cases hp : populate ty user ds with
      | error er => simp [hp] at h
      | ok vs =>
        simp only [hp, Except.ok.injEq] at h
        subst h
        obtain ⟨h1, h2, h3⟩ := ih hp
        refine ⟨by simpa [dkeys] using h1, fun k => ?_, fun k e' v' => ?_⟩
        · simp only [dget]
          split_ifs with hk
          · subst hk; simp [effective, hu]
          · exact h2 k
        · simp only [dget]
          split_ifs with hk
          · subst hk
            rw [hu]
            simp only [Option.some.injEq]
            rintro rfl rfl
            exact ht
          · exact h3 k e' v'
    | none =>
      simp only [hu] at h
      cases hp : populate ty user ds with
      | error er => simp [hp] at h
      | ok vs =>
        simp only [hp, Except.ok.injEq] at h
        subst h
        obtain ⟨h1, h2, h3⟩ := ih hp
        refine ⟨by simpa [dkeys] using h1, fun k => ?_, fun k e' v' => ?_⟩
        · simp only [dget]
          split_ifs with hk
          · subst hk; simp [effective, hu]
          · exact h2 k
        · simp only [dget]
          split_ifs with hk
          · subst hk
            rw [hu]
            simp
          · exact h3 k e' v'

lemma populate_error {ty : V → T} {user : Dict V} : ∀ {ds : Dict (Entry T V)} {er : CfgErr},
    Keyed ds → populate ty user ds = .error er →
    ∃ k e v, er = .badType k ∧ dget ds k = some e ∧ dget user k = some v ∧ some (ty v) ∉ e.types := by
  intro ds
  induction ds with
  | nil => intro er _ h; simp [populate] at h
  | cons p ds ih =>
    obtain ⟨a, e⟩ := p
    intro er hk h
    have hnd : a ∉ dkeys ds ∧ Keyed ds := by
      unfold Keyed dkeys at hk ⊢
      simpa using hk
    have hlift : (∃ k e' v, er = .badType k ∧ dget ds k = some e' ∧ dget user k = some v ∧
        some (ty v) ∉ e'.types) → ∃ k e' v, er = .badType k ∧ dget ((a, e) :: ds) k = some e' ∧
        dget user k = some v ∧ some (ty v) ∉ e'.types := by
      rintro ⟨k, e', v, h1, h2, h3, h4⟩
      refine ⟨k, e', v, h1, ?_, h3, h4⟩
      have : a ≠ k := by
        rintro rfl
        exact hnd.1 (mem_dkeys.2 ⟨_, h2⟩)
      simp only [dget, if_neg this, h2]
    unfold populate at h
    cases hu : dget user a with
    | some v =>
      simp only [hu] at h
      split_ifs at h with ht
      · cases hp : populate ty user ds with
        | error er' =>
          simp only [hp, Except.error.injEq] at h
          subst h
          exact hlift (ih hnd.2 hp)
        | ok vs => simp [hp] at h
      · simp only [Except.error.injEq] at h
        exact ⟨a, e, v, h.symm, by simp [dget], hu, ht⟩
    | none =>
      simp only [hu] at h
      cases hp : populate ty user ds with
      | error er' =>
        simp only [hp, Except.error.injEq] at h
        subst h
        exact hlift (ih hnd.2 hp)
      | ok vs => simp [hp] at h

lemma populateSub_spec {ty : V → T} {user : Dict V} : ∀ {ds : Dict (Entry T V)} {vars vs : Dict V}
    {ws : List CfgWarn}, Keyed ds → populateSub ty user ds vars = .ok (vs, ws) →
    (∀ k, dget vs k = match dget vars k with
      | some v => some v
      | none => (dget ds k).map (fun e => effective (dget user) e k)) ∧
    (∀ k e v, dget vars k = none → dget ds k = some e → dget user k = some v →
      some (ty v) ∈ e.types) ∧
    ws = ((dkeys ds).filter (fun k => k ∈ dkeys vars)).map .shadowed := by
  intro ds
  induction ds with
  | nil =>
    intro vars vs ws _ h
    simp only [populateSub, Except.ok.injEq, Prod.mk.injEq] at h
    obtain ⟨rfl, rfl⟩ := h
    refine ⟨fun k => ?_, by simp [dget], by simp [dkeys]⟩
    cases dget vars k <;> simp [dget]
  | cons p ds ih =>
    obtain ⟨a, e⟩ := p
    intro vars vs ws hk h
    have hnd : a ∉ dkeys ds ∧ Keyed ds := by
      unfold Keyed dkeys at hk ⊢
      simpa using hk
    have hfresh : ∀ v, (dkeys ds).filter (fun k => k ∈ dkeys (dset vars a v)) =
        (dkeys ds).filter (fun k => k ∈ dkeys vars) := by
      intro v
      apply List.filter_congr
      intro k hkd
      have hne : k ≠ a := fun hka => hnd.1 (hka ▸ hkd)
      have : k ∈ dkeys (dset vars a v) ↔ k ∈ dkeys vars := by
        rw [mem_dkeys, mem_dkeys, dget_dset, if_neg hne]
      exact decide_eq_decide.2 this
    have hcons : ∀ p : String → Bool, (dkeys ((a, e) :: ds)).filter p =
        if p a then a :: (dkeys ds).filter p else (dkeys ds).filter p := by
      intro p
      unfold dkeys
      simp only [List.map_cons, List.filter_cons]
    unfold populateSub at h
    split_ifs at h with hin
    · cases hp : populateSub ty user ds vars with
      | error er => simp [hp] at h
      | ok r =>
        obtain ⟨vs', ws'⟩ := r
        simp only [hp, Except.ok.injEq, Prod.mk.injEq] at h
        obtain ⟨rfl, rfl⟩ := h
        obtain ⟨h1, h2, h3⟩ := ih hnd.2 hp
        refine ⟨fun k => ?_, fun k e' v hv => ?_, ?_⟩
        · rw [h1 k]
          cases hv : dget vars k with
          | some v => rfl
          | none =>
            have : a ≠ k := by
              rintro rfl
              exact dget_none.1 hv hin
            simp only [dget, if_neg this]
        · have : a ≠ k := by
            rintro rfl
            exact dget_none.1 hv hin
          simp only [dget, if_neg this]
          exact h2 k e' v hv
        · rw [h3, hcons]
          simp [hin]
    · have hav : dget vars a = none := dget_none.2 hin
      cases hu : dget user a with
      | some v =>
        simp only [hu] at h
        split_ifs at h with ht
        obtain ⟨h1, h2, h3⟩ := ih hnd.2 h
        refine ⟨fun k => ?_, fun k e' v' hv => ?_, ?_⟩
        · rw [h1 k, dget_dset]
          by_cases hka : k = a
          · subst hka; simp [hav, dget, effective, hu]
          · simp only [if_neg hka, dget, if_neg (Ne.symm hka)]
        · by_cases hka : a = k
          · subst hka
            simp only [dget, if_true, Option.some.injEq, hu]
            rintro rfl rfl
            exact ht
          · simp only [dget, if_neg hka]
            refine h2 k e' v' ?_
            rw [dget_dset, if_neg (Ne.symm hka)]
            exact hv
        · rw [h3, hcons, hfresh]
          simp [hin]
      | none =>
        simp only [hu] at h
        obtain ⟨h1, h2, h3⟩ := ih hnd.2 h
        refine ⟨fun k => ?_, fun k e' v' hv => ?_, ?_⟩
        · rw [h1 k, dget_dset]
          by_cases hka : k = a
          · subst hka; simp [hav, dget, effective, hu]
          · simp only [if_neg hka, dget, if_neg (Ne.symm hka)]
        · by_cases hka : a = k
          · subst hka
            simp [hu]
          · simp only [dget, if_neg hka]
            refine h2 k e' v' ?_
            rw [dget_dset, if_neg (Ne.symm hka)]
            exact hv
        · rw [h3, hcons, hfresh]
          simp [hin]

lemma populateSub_error {ty : V → T} {user : Dict V} : ∀ {ds : Dict (Entry T V)} {vars : Dict V}
    {er : CfgErr}, Keyed ds → populateSub ty user ds vars = .error er →
    ∃ k e v, er = .badType k ∧ dget vars k = none ∧ dget ds k = some e ∧ dget user k = some v ∧
      some (ty v) ∉ e.types := by
  intro ds
  induction ds with
  | nil => intro vars er _ h; simp [populateSub] at h
  | cons p ds ih =>
    obtain ⟨a, e⟩ := p
    intro vars er hk h
    have hnd : a ∉ dkeys ds ∧ Keyed ds := by
      unfold Keyed dkeys at hk ⊢
      simpa using hk
    have hlift : ∀ vars' : Dict V, (∀ k, dget vars' k = none → dget vars k = none) →
        (∃ k e' v, er = .badType k ∧ dget vars' k = none ∧ dget ds k = some e' ∧
          dget user k = some v ∧ some (ty v) ∉ e'.types) →
        ∃ k e' v, er = .badType k ∧ dget vars k = none ∧ dget ((a, e) :: ds) k = some e' ∧
        dget user k = some v ∧ some (ty v) ∉ e'.types := by
      rintro vars' hv ⟨k, e', v, h1, h2, h3, h4, h5⟩
      refine ⟨k, e', v, h1, hv k h2, ?_, h4, h5⟩
      have : a ≠ k := by
        rintro rfl
        exact hnd.1 (mem_dkeys.2 ⟨_, h3⟩)
      simp only [dget, if_neg this, h3]
    have hset : ∀ v k, dget (dset vars a v) k = none → dget vars k = none := by
      intro v k
      rw [dget_dset]
      split_ifs <;> simp
    unfold populateSub at h
    split_ifs at h with hin
    · cases hp : populateSub ty user ds vars with
      | error er' =>
        simp only [hp, Except.error.injEq] at h
        subst h
        exact hlift vars (fun _ h => h) (ih hnd.2 hp)
      | ok r => simp [hp] at h
    · cases hu : dget user a with
      | some v =>
        simp only [hu] at h
        split_ifs at h with ht
        · exact hlift _ (hset v) (ih hnd.2 h)
        · simp only [Except.error.injEq] at h
          exact ⟨a, e, v, h.symm, dget_none.2 hin, by simp [dget], hu, ht⟩
      | none =>
        simp only [hu] at h
        exact hlift _ (hset _) (ih hnd.2 h)

/-- The entry that describes a key: a parameter of the model before one of a subclass. -/
def entryOf (defaults sub : Dict (Entry T V)) (k : String) : Option (Entry T V) :=
  match dget defaults k with
  | some e => some e
  | none => dget sub k

/-- The file as a partial function; no file is an empty one. -/
def fileGet (file : Option (Option (Dict V))) : String → Option V := dget ((file.getD none).getD [])

lemma importFiles_ok {ty : V → T} {defaults sub : Dict (Entry T V)}
    {file : Option (Option (Dict V))} {kw vars : Dict V} {ws : List CfgWarn}
    (h : importFiles ty defaults sub file kw = .ok (vars, ws)) : ∃ vars0 w2,
    populate ty (mergeKw ((file.getD none).getD []) kw).1 defaults = .ok vars0 ∧
    populateSub ty (mergeKw ((file.getD none).getD []) kw).1 sub vars0 = .ok (vars, w2) ∧
    ws = (mergeKw ((file.getD none).getD []) kw).2 ++ w2 ++
      unusedWarn (mergeKw ((file.getD none).getD []) kw).1 vars := by
  unfold importFiles at h
  split at h
  · simp at h
  · simp only at h
    cases hp : populate ty (mergeKw ((file.getD none).getD []) kw).1 defaults with
    | error e => simp [hp] at h
    | ok vars0 =>
      simp only [hp] at h
      cases hq : populateSub ty (mergeKw ((file.getD none).getD []) kw).1 sub vars0 with
      | error e => simp [hq] at h
      | ok r =>
        obtain ⟨vs, w2⟩ := r
        simp only [hq, Except.ok.injEq, Prod.mk.injEq] at h
        obtain ⟨rfl, rfl⟩ := h
        exact ⟨vars0, w2, rfl, hq, rfl⟩

/-- C48: the values of a configuration. Exactly the parameters of the model and of the subclass have a
value: the keyword if given, else the value in the file, else the default. -/
theorem C48_precedence {ty : V → T} {defaults sub : Dict (Entry T V)}
    {file : Option (Option (Dict V))} {kw vars : Dict V} {ws : List CfgWarn} (hkw : Keyed kw)
    (hsub : Keyed sub) (h : importFiles ty defaults sub file kw = .ok (vars, ws)) (k : String) :
    dget vars k = match entryOf defaults sub k with
      | none => none
      | some e => match dget kw k with
        | some v => some v
        | none => match fileGet file k with
          | some v => some v
          | none => some e.default := by
  obtain ⟨vars0, w2, h1, h2, -⟩ := importFiles_ok h
  obtain ⟨-, p2, -⟩ := populate_spec h1
  obtain ⟨q1, -, -⟩ := populateSub_spec hsub h2
  have heff : ∀ e : Entry T V, effective (dget (mergeKw ((file.getD none).getD []) kw).1) e k =
      match dget kw k with
        | some v => v
        | none => match fileGet file k with
          | some v => v
          | none => e.default := by
    intro e
    unfold effective
    rw [mergeKw_get hkw]
    unfold supplied fileGet
    cases dget kw k <;> rfl
  rw [q1 k, p2 k]
  unfold entryOf
  cases hd : dget defaults k with
  | some e =>
    simp only [Option.map_some, heff]
    cases dget kw k with
    | some v => rfl
    | none => cases fileGet file k <;> rfl
  | none =>
    simp only [Option.map_none]
    cases hs : dget sub k with
    | none => rfl
    | some e =>
      simp only [Option.map_some, heff]
      cases dget kw k with
      | some v => rfl
      | none => cases fileGet file k <;> rfl

/-- C48: a configuration is rejected exactly if the file is empty or some parameter is supplied with a
value whose type is not allowed; the error names such a parameter. -/
theorem C48_rejected {ty : V → T} {defaults sub : Dict (Entry T V)}
    {file : Option (Option (Dict V))} {kw : Dict V} (hkw : Keyed kw) (hd : Keyed defaults)
    (hsub : Keyed sub) :
    (∀ er, importFiles ty defaults sub file kw = .error er → er = .emptyFile ∧ file = some none ∨
      ∃ k e v, er = .badType k ∧ entryOf defaults sub k = some e ∧
        supplied (fileGet file) (dget kw) k = some v ∧ some (ty v) ∉ e.types) ∧
    (∀ k e v, entryOf defaults sub k = some e → supplied (fileGet file) (dget kw) k = some v →
      some (ty v) ∉ e.types → ∃ er, importFiles ty defaults sub file kw = .error er) := by
  constructor
  · intro er h
    unfold importFiles at h
    split at h
    · left
      simp only [Except.error.injEq] at h
      exact ⟨h.symm, rfl⟩
    · right
      simp only at h
      cases hp : populate ty (mergeKw ((file.getD none).getD []) kw).1 defaults with
      | error e =>
        simp only [hp, Except.error.injEq] at h
        subst h
        obtain ⟨k, e', v, h1, h2, h3, h4⟩ := populate_error hd hp
        refine ⟨k, e', v, h1, by simp [entryOf, h2], ?_, h4⟩
        rw [mergeKw_get hkw] at h3
        exact h3
      | ok vars0 =>
        simp only [hp] at h
        cases hq : populateSub ty (mergeKw ((file.getD none).getD []) kw).1 sub vars0 with
        | error e =>
          simp only [hq, Except.error.injEq] at h
          subst h
          obtain ⟨k, e', v, h1, h2, h3, h4, h5⟩ := populateSub_error hsub hq
          refine ⟨k, e', v, h1, ?_, ?_, h5⟩
          · rw [(populate_spec hp).2.1 k] at h2
            simp only [Option.map_eq_none_iff] at h2
            simp [entryOf, h2, h3]
          · rw [mergeKw_get hkw] at h4
            exact h4
        | ok r => simp [hq] at h
  · intro k e v he hv ht
    cases h : importFiles ty defaults sub file kw with
    | error er => exact ⟨er, rfl⟩
    | ok r =>
      exfalso
      obtain ⟨vars, ws⟩ := r
      obtain ⟨vars0, w2, h1, h2, -⟩ := importFiles_ok h
      obtain ⟨-, p2, p3⟩ := populate_spec h1
      obtain ⟨-, q2, -⟩ := populateSub_spec hsub h2
      have hv' : dget (mergeKw ((file.getD none).getD []) kw).1 k = some v := by
        rw [mergeKw_get hkw]; exact hv
      unfold entryOf at he
      cases hdk : dget defaults k with
      | some e' =>
        simp only [hdk, Option.some.injEq] at he
        subst he
        exact ht (p3 k e' v hdk hv')
      | none =>
        simp only [hdk] at he
        exact ht (q2 k e v (by rw [p2 k, hdk]; rfl) he hv')

/-- C48: the value of a parameter has one of its types or is its default. -/
theorem C48_typed {ty : V → T} {defaults sub : Dict (Entry T V)} {file : Option (Option (Dict V))}
    {kw vars : Dict V} {ws : List CfgWarn} (hkw : Keyed kw) (hd : Keyed defaults) (hsub : Keyed sub)
    (h : importFiles ty defaults sub file kw = .ok (vars, ws)) {k : String} {v : V}
    (hv : dget vars k = some v) :
    ∃ e, entryOf defaults sub k = some e ∧ (some (ty v) ∈ e.types ∨ v = e.default) := by
  rw [C48_precedence hkw hsub h] at hv
  cases he : entryOf defaults sub k with
  | none => simp [he] at hv
  | some e =>
    refine ⟨e, rfl, ?_⟩
    simp only [he] at hv
    by_contra hno
    push Not at hno
    have hs : supplied (fileGet file) (dget kw) k = some v := by
      unfold supplied
      cases hk : dget kw k with
      | some v' => simpa [hk] using hv
      | none =>
        simp only [hk] at hv ⊢
        cases hf : fileGet file k with
        | some v' => simpa [hf] using hv
        | none =>
          simp only [hf, Option.some.injEq] at hv
          exact absurd hv.symm hno.2
    obtain ⟨er, h'⟩ := (C48_rejected hkw hd hsub).2 k e v he hs hno.1
    rw [h'] at h
    simp at h

/-- An explicit `null` is rejected for every parameter, even those whose listed types include `None`
(`seed`, `hb`, `active_layer_thickness`, `checkpoint_dt`, `stepmax`): no entry of `default.yml` lists
the type of `None`. -/
theorem C48_null {sub : Dict (Entry PyType Val)} {file : Option (Option (Dict Val))} {kw : Dict Val}
    (hkw : Keyed kw) (hsub : Keyed sub) {k : String} (hk : k ∈ dkeys defaultTable)
    (hv : supplied (fileGet file) (dget kw) k = some .null) :
    ∃ er, importFiles Val.type defaultTable sub file kw = .error er := by
  have hall : ∀ p ∈ defaultTable, some PyType.noneType ∉ p.2.types := by decide
  have hget : ∀ (d : Dict (Entry PyType Val)) e, dget d k = some e → (k, e) ∈ d := by
    intro d
    induction d with
    | nil => intro e h; simp [dget] at h
    | cons p d ih =>
      obtain ⟨a, w⟩ := p
      intro e h
      simp only [dget] at h
      split_ifs at h with ha
      · subst ha
        simp only [Option.some.injEq] at h
        subst h
        exact List.mem_cons_self
      · exact List.mem_cons_of_mem _ (ih e h)
  obtain ⟨e, he⟩ := mem_dkeys.1 hk
  exact (C48_rejected hkw (by unfold Keyed dkeys; decide +kernel) hsub).2 k e .null
    (by simp [entryOf, he]) hv (hall _ (hget _ e he))

/-! ## C49 -/

lemma foldl_ddel_get (ks : List String) (d : Dict V) (j : String) :
    dget (ks.foldl ddel d) j = if j ∈ ks then none else dget d j := by
  induction ks generalizing d with
  | nil => simp
  | cons k ks ih =>
    simp only [List.foldl_cons, ih, dget_ddel, List.mem_cons]
    by_cases h1 : j ∈ ks
    · simp [h1]
    · by_cases h2 : j = k <;> simp [h1, h2]

lemma mem_noList {k : String} : k ∈ noList ↔ k ∈ runControl := by
  unfold noList runControl
  simp

lemma mem_ppOnly {k : String} : k ∈ ppOnlyKw ↔ k ∈ preprocessorOnly := by
  unfold ppOnlyKw preprocessorOnly
  simp

/-- A key is unused: supplied, but neither a parameter of the model or subclass nor for the control of
a run. -/
def Unused (defaults sub : Dict (Entry T V)) (file : Option (Option (Dict V))) (kw : Dict V)
    (k : String) : Prop :=
  supplied (fileGet file) (dget kw) k ≠ none ∧ entryOf defaults sub k = none ∧ k ∉ runControl

/-- C49: the report on unused keys. If there are none, there is no warning; if there are, and none is
for the Preprocessor only, one warning lists exactly these; keys for the Preprocessor only get their own
warning that lists exactly those. Missing: a warning on the other unused keys in the last case
(`C49_hidden`). -/
theorem C49_report_partial {ty : V → T} {defaults sub : Dict (Entry T V)}
    {file : Option (Option (Dict V))} {kw vars : Dict V} {ws : List CfgWarn} (hkw : Keyed kw)
    (hsub : Keyed sub) (h : importFiles ty defaults sub file kw = .ok (vars, ws)) :
    ((∀ k, ¬ Unused defaults sub file kw k) → ∀ ks, .unused ks ∉ ws ∧ .ppOnly ks ∉ ws) ∧
    ((∃ k, Unused defaults sub file kw k) →
      (∀ k, Unused defaults sub file kw k → k ∉ preprocessorOnly) →
      ∃ ks, (∀ ks', .unused ks' ∈ ws ↔ ks' = ks) ∧ (∀ ks', .ppOnly ks' ∉ ws) ∧
        ∀ k, k ∈ ks ↔ Unused defaults sub file kw k) ∧
    ((∃ k, Unused defaults sub file kw k ∧ k ∈ preprocessorOnly) →
      ∃ ks, (∀ ks', .ppOnly ks' ∈ ws ↔ ks' = ks) ∧ (∀ ks', .unused ks' ∉ ws) ∧
        ∀ k, k ∈ ks ↔ Unused defaults sub file kw k ∧ k ∈ preprocessorOnly) := by
  have hprec := fun k => C48_precedence hkw hsub h k
  obtain ⟨vars0, w2, h1, h2, h3⟩ := importFiles_ok h
  have hw1 : ∀ (user kw : Dict V) ks, .unused ks ∉ (mergeKw user kw).2 ∧
      .ppOnly ks ∉ (mergeKw user kw).2 := by
    intro user kw ks
    induction kw generalizing user with
    | nil => simp [mergeKw]
    | cons p kw ih =>
      obtain ⟨a, v⟩ := p
      have := ih (dset user a v)
      simp only [mergeKw]
      split_ifs <;> simp [this]
  have hw2 : ∀ ks, .unused ks ∉ w2 ∧ .ppOnly ks ∉ w2 := by
    intro ks
    rw [(populateSub_spec hsub h2).2.2]
    simp
  generalize hu : (dkeys (noList.foldl ddel (mergeKw ((file.getD none).getD []) kw).1)).filter
    (fun k => k ∉ dkeys vars) = uks
  have hmem : ∀ k, k ∈ uks ↔ Unused defaults sub file kw k := by
    intro k
    rw [← hu, List.mem_filter]
    simp only [decide_eq_true_eq]
    rw [← dget_none, mem_dkeys, foldl_ddel_get, hprec k]
    unfold Unused
    rw [mergeKw_get hkw]
    have e1 : supplied (dget ((file.getD none).getD [])) (dget kw) k =
        supplied (fileGet file) (dget kw) k := rfl
    rw [e1]
    have e2 : (match entryOf defaults sub k with
      | none => none
      | some e => match dget kw k with
        | some v => some v
        | none => match fileGet file k with
          | some v => some v
          | none => some e.default) = (none : Option V) ↔ entryOf defaults sub k = none := by
      cases entryOf defaults sub k with
      | none => simp
      | some e =>
        cases dget kw k with
        | some v => simp
        | none => cases fileGet file k <;> simp
    rw [e2]
    by_cases hr : k ∈ runControl
    · simp [hr, mem_noList.2 hr]
    · simp only [hr, mt mem_noList.1 hr, if_false, not_false_iff, and_true]
      rw [← Option.isSome_iff_exists, Option.isSome_iff_ne_none]
  have hunf : unusedWarn (mergeKw ((file.getD none).getD []) kw).1 vars =
      if 0 < uks.length then
        if 0 < (uks.filter (fun k => k ∈ ppOnlyKw)).length then
          [.ppOnly (uks.filter (fun k => k ∈ ppOnlyKw))] else [.unused uks]
      else [] := by
    unfold unusedWarn
    simp only [hu]
  have hws : ∀ w : CfgWarn, (∃ ks, w = .unused ks ∨ w = .ppOnly ks) →
      (w ∈ ws ↔ w ∈ unusedWarn (mergeKw ((file.getD none).getD []) kw).1 vars) := by
    rintro w ⟨ks, rfl | rfl⟩
    · rw [h3]
      simp only [List.mem_append, (hw1 _ _ ks).1, (hw2 ks).1, false_or]
    · rw [h3]
      simp only [List.mem_append, (hw1 _ _ ks).2, (hw2 ks).2, false_or]
  refine ⟨fun hno ks => ?_, fun ⟨k0, hk0⟩ hno => ?_, fun ⟨k0, hk0, hp0⟩ => ?_⟩
  · have hnil : uks = [] := by
      rw [List.eq_nil_iff_forall_not_mem]
      intro k hk
      exact hno k ((hmem k).1 hk)
    rw [hws _ ⟨ks, Or.inl rfl⟩, hws _ ⟨ks, Or.inr rfl⟩, hunf, hnil]
    simp
  · have hpos : 0 < uks.length := List.length_pos_of_mem ((hmem k0).2 hk0)
    have hf : uks.filter (fun k => k ∈ ppOnlyKw) = [] := by
      rw [List.filter_eq_nil_iff]
      intro k hk
      simp only [decide_eq_true_eq]
      rw [mem_ppOnly]
      exact hno k ((hmem k).1 hk)
    refine ⟨uks, fun ks' => ?_, fun ks' => ?_, hmem⟩
    · rw [hws _ ⟨ks', Or.inl rfl⟩, hunf, hf, if_pos hpos]
      simp
    · rw [hws _ ⟨ks', Or.inr rfl⟩, hunf, hf, if_pos hpos]
      simp
  · have hpos : 0 < uks.length := List.length_pos_of_mem ((hmem k0).2 hk0)
    have hf : 0 < (uks.filter (fun k => k ∈ ppOnlyKw)).length := by
      refine List.length_pos_of_mem (a := k0) ?_
      rw [List.mem_filter]
      exact ⟨(hmem k0).2 hk0, by simpa using mem_ppOnly.2 hp0⟩
    refine ⟨uks.filter (fun k => k ∈ ppOnlyKw), fun ks' => ?_, fun ks' => ?_, fun k => ?_⟩
    · rw [hws _ ⟨ks', Or.inr rfl⟩, hunf, if_pos hpos, if_pos hf]
      simp
    · rw [hws _ ⟨ks', Or.inl rfl⟩, hunf, if_pos hpos, if_pos hf]
      simp
    · rw [List.mem_filter, hmem k]
      simp only [decide_eq_true_eq, mem_ppOnly]

/-- An unused key goes without a warning if there is a key for the Preprocessor as well. -/
theorem C49_hidden : ∃ vars ws, importFiles Val.type defaultTable []
    (some (some [("matrix", Val.other), ("Lenght", .float 100)])) [] = .ok (vars, ws) ∧
    Unused defaultTable [] (some (some [("matrix", Val.other), ("Lenght", .float 100)])) []
      "Lenght" ∧ ws = [.ppOnly ["matrix"]] := by
  refine ⟨(defaultTable.map fun p => (p.1, p.2.default)), _, rfl, ⟨?_, ?_, ?_⟩, ?_⟩
  · decide +kernel
  · decide +kernel
  · decide +kernel
  · decide +kernel

/-- The intermittency `If`, which the Preprocessor reads from the same file, is reported as unused. -/
theorem C49_If : ∃ vars, importFiles Val.type defaultTable []
    (some (some [("time_years", Val.int 5), ("If", .float (1 / 2))])) [] =
      .ok (vars, [.unused ["If"]]) :=
  ⟨(defaultTable.map fun p => (p.1, p.2.default)), by decide +kernel⟩

-- C48: a keyword over the file over the default; a wrong type; an empty file
example : ∃ vars ws, importFiles Val.type defaultTable []
    (some (some [("h0", Val.int 4), ("u0", .float (3 / 2))])) [("h0", .float 7)] = .ok (vars, ws) ∧
    dget vars "h0" = some (.float 7) ∧ dget vars "u0" = some (.float (3 / 2)) ∧
    dget vars "dx" = some (.float 50) ∧ ws = [.both "h0"] :=
  ⟨_, _, rfl, by decide +kernel⟩
example : importFiles Val.type defaultTable [] (some (some [("itermax", Val.float 3)])) [] =
    .error (.badType "itermax") := by decide +kernel
example : Keyed defaultTable := by unfold Keyed dkeys; decide +kernel

end Verif.Props
