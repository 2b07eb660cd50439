import Verif.Spec.OutputFile
import Verif.Props.Setup
import Verif.Props.SaveFlags
import Verif.Props.Expand
import Verif.Props.Output

/-!
# C54, C75 and C76: the contents of the output file
-/

set_option linter.unusedSectionVars false
set_option linter.unusedSimpArgs false

namespace Verif.Props

open Verif.Model Verif.Spec

variable {K : Type*} [Field K] [LinearOrder K] [IsStrictOrderedRing K] [FloorRing K] {σ : Type*}
  {L W m : ℕ}

/-! ## C54: what the entries stand for -/

/-- C54: the entries of a flag have the documented names, and the attribute of each is the field that the
name stands for. -/
theorem C54_content (S : State L W K) (f : GridFlag) :
    f.entries.map (·.1) = askedFor f ∧
    ∀ e ∈ f.entries, attrGrid S e.2 = documentedGrid S e.1 ∧ (attrGrid S e.2).isSome = true := by
  cases f <;> refine ⟨rfl, ?_⟩ <;> intro e he <;> simp only [GridFlag.entries, List.mem_cons,
    List.not_mem_nil, or_false] at he
  all_goals first
    | (subst he; exact ⟨rfl, rfl⟩)
    | (rcases he with rfl | rfl <;> exact ⟨rfl, rfl⟩)

/-- C54: the same for figures. -/
theorem C54_content_figs (S : State L W K) (f : FigFlag) :
    f.entry.1 = figureOf f ∧ attrGrid S f.entry.2 = documentedGrid S f.entry.1 ∧
    (attrGrid S f.entry.2).isSome = true := by
  cases f <;> exact ⟨rfl, rfl, rfl⟩

/-! ## The list of variables -/

lemma keyed_setVar {b : Bool} {l : Dict String} {e : String × String} (h : Keyed l) :
    Keyed (setVar b l e) := by
  unfold setVar
  split_ifs
  · exact keyed_dset h _ _
  · exact keyed_ddel h _
  · exact h

lemma keyed_gridsAfter (ops : List (GridFlag × Bool)) : Keyed (gridsAfter ops) := by
  induction ops using List.reverseRecOn with
  | nil => simp [gridsAfter, Keyed, dkeys]
  | append_singleton ops op ih =>
    have hstep : gridsAfter (ops ++ [op]) = setGrid (gridsAfter ops) op.1 op.2 := by
      unfold gridsAfter; rw [List.foldl_append]; rfl
    rw [hstep]
    unfold setGrid
    have : ∀ (es : List (String × String)) (l : Dict String), Keyed l → Keyed (es.foldl (setVar op.2) l) := by
      intro es
      induction es with
      | nil => exact fun l h => h
      | cons a es ih2 => exact fun l h => ih2 _ (keyed_setVar h)
    exact this _ _ ih

lemma flagValue_iff (ops : List (GridFlag × Bool)) (f : GridFlag) :
    flagValue ops f = true ↔ lastSet ops f = some true := by
  induction ops using List.reverseRecOn with
  | nil => simp [flagValue, lastSet]
  | append_singleton ops op ih =>
    obtain ⟨g, b⟩ := op
    rw [lastSet_snoc]
    have : flagValue (ops ++ [(g, b)]) f = if g = f then b else flagValue ops f := by
      unfold flagValue; rw [List.foldl_append]; rfl
    rw [this]
    split_ifs
    · simp
    · exact ih

lemma anyGrids_iff (ops : List (GridFlag × Bool)) :
    anyGrids ops = true ↔ ∃ f, flagValue ops f = true := by
  unfold anyGrids
  simp only [Bool.or_eq_true]
  constructor
  · rintro ((((((((h | h) | h) | h) | h) | h) | h) | h) | h) <;> exact ⟨_, h⟩
  · rintro ⟨f, h⟩
    cases f <;> simp [h]

/-- An entry of the list belongs to a flag that is true. -/
lemma gridsAfter_entry {ops : List (GridFlag × Bool)} {k a : String}
    (h : dget (gridsAfter ops) k = some a) : ∃ f, flagValue ops f = true ∧ (k, a) ∈ f.entries := by
  obtain ⟨f, e, he, rfl⟩ := C54_grids_only ops k (mem_dkeys.2 ⟨a, h⟩)
  have hl := C54_grids ops f e he
  by_cases ht : lastSet ops f = some true
  · have := hl.1 ht
    rw [h, Option.some.injEq] at this
    exact ⟨f, (flagValue_iff ops f).2 ht, this ▸ he⟩
  · rw [hl.2 ht] at h
    simp at h

lemma mem_of_dget {V : Type*} {d : Dict V} {k : String} {v : V} (h : dget d k = some v) : (k, v) ∈ d := by
  induction d with
  | nil => simp [dget] at h
  | cons p d ih =>
    obtain ⟨a, w⟩ := p
    simp only [dget] at h
    split_ifs at h with hk
    · cases h; subst hk; exact List.mem_cons_self
    · exact List.mem_cons_of_mem _ (ih h)

lemma dget_of_mem {V : Type*} {d : Dict V} (hk : Keyed d) {k : String} {v : V} (h : (k, v) ∈ d) :
    dget d k = some v := by
  induction d with
  | nil => simp at h
  | cons p d ih =>
    obtain ⟨a, w⟩ := p
    rw [keyed_cons] at hk
    simp only [dget]
    rcases List.mem_cons.1 h with h1 | h1
    · cases h1; simp
    · rw [if_neg, ih hk.2 h1]
      rintro rfl
      exact hk.1 (mem_dkeys.2 ⟨v, ih hk.2 h1⟩)

lemma dkeys_dset_mem {V : Type*} {d : Dict V} {k : String} (h : k ∈ dkeys d) (v : V) :
    dkeys (dset d k v) = dkeys d := by
  induction d with
  | nil => simp [dkeys] at h
  | cons p d ih =>
    obtain ⟨a, w⟩ := p
    simp only [dset]
    split_ifs with ha
    · rfl
    · simp only [dkeys, List.map_cons] at h ih ⊢
      rw [ih]
      rcases List.mem_cons.1 h with h1 | h1
      · exact absurd h1.symm ha
      · exact h1

/-! ## Records -/

lemma writeGrids_ok {S : State L W K} {i : ℕ} {es : List (String × String)} (hk : Keyed es)
    (ha : ∀ e ∈ es, (attrGrid S e.2).isSome = true) : ∀ {f : NcFile L W K},
    (∀ e ∈ es, e.1 ∈ dkeys f.vars) → ∃ vs, writeGrids S i es f = ({ f with vars := vs }, none) ∧
      dkeys vs = dkeys f.vars ∧ ∀ k, dget vs k = match dget es k with
        | none => dget f.vars k
        | some a => (dget f.vars k).map fun v => ⟨v.units, Function.update v.data i (attrGrid S a)⟩ := by
  induction es with
  | nil => exact fun {f} _ => ⟨f.vars, rfl, rfl, fun k => rfl⟩
  | cons p es ih =>
    obtain ⟨k0, a⟩ := p
    intro f hv
    rw [keyed_cons] at hk
    obtain ⟨g, hg⟩ := Option.isSome_iff_exists.1 (ha _ List.mem_cons_self)
    obtain ⟨v, hv0⟩ := mem_dkeys.1 (hv _ List.mem_cons_self)
    simp only at hg hv0
    have hm : k0 ∈ dkeys f.vars := hv _ List.mem_cons_self
    obtain ⟨vs, h1, h2, h3⟩ := ih hk.2 (fun e he => ha e (List.mem_cons_of_mem _ he))
      (f := { f with vars := dset f.vars k0 (v.write i g) }) (fun e he => by
        rw [dkeys_dset_mem hm]; exact hv e (List.mem_cons_of_mem _ he))
    refine ⟨vs, ?_, ?_, ?_⟩
    · simp only [writeGrids, hg, hv0]
      rw [h1]
    · rw [h2, dkeys_dset_mem hm]
    · intro k
      rw [h3 k]
      simp only [dget]
      by_cases hkk : k0 = k
      · subst hkk
        rw [dget_none.2 hk.1]
        simp only [if_true, dget_dset, hv0, Option.map_some, NcVar.write, hg]
      · rw [if_neg hkk]
        cases he : dget es k with
        | none => simp only [dget_dset, if_neg (Ne.symm hkk)]
        | some b => simp only [dget_dset, if_neg (Ne.symm hkk)]

lemma writeMeta_ok {M : Live L W m K} {i : ℕ} {es : List (String × String)} (hk : Keyed es)
    (ha : ∀ e ∈ es, (attrNum M e.1).isSome = true) : ∀ {f : NcFile L W K},
    (∀ e ∈ es, e.1 ∈ dkeys f.varying) → ∃ vs, writeMeta M i es f = ({ f with varying := vs }, none) ∧
      dkeys vs = dkeys f.varying ∧ ∀ k, dget vs k = match dget es k with
        | none => dget f.varying k
        | some _ => (dget f.varying k).map fun v => ⟨v.units, Function.update v.data i (attrNum M k)⟩ := by
  induction es with
  | nil => exact fun {f} _ => ⟨f.varying, rfl, rfl, fun k => rfl⟩
  | cons p es ih =>
    obtain ⟨k0, a⟩ := p
    intro f hv
    rw [keyed_cons] at hk
    obtain ⟨g, hg⟩ := Option.isSome_iff_exists.1 (ha _ List.mem_cons_self)
    obtain ⟨v, hv0⟩ := mem_dkeys.1 (hv _ List.mem_cons_self)
    simp only at hg hv0
    have hm : k0 ∈ dkeys f.varying := hv _ List.mem_cons_self
    obtain ⟨vs, h1, h2, h3⟩ := ih hk.2 (fun e he => ha e (List.mem_cons_of_mem _ he))
      (f := { f with varying := dset f.varying k0 (v.write i g) }) (fun e he => by
        rw [dkeys_dset_mem hm]; exact hv e (List.mem_cons_of_mem _ he))
    refine ⟨vs, ?_, ?_, ?_⟩
    · simp only [writeMeta, hg, hv0]
      rw [h1]
    · rw [h2, dkeys_dset_mem hm]
    · intro k
      rw [h3 k]
      simp only [dget]
      by_cases hkk : k0 = k
      · subst hkk
        rw [dget_none.2 hk.1]
        simp only [if_true, dget_dset, hv0, Option.map_some, NcVar.write, hg]
      · rw [if_neg hkk]
        cases he : dget es k with
        | none => simp only [dget_dset, if_neg (Ne.symm hkk)]
        | some b => simp only [dget_dset, if_neg (Ne.symm hkk)]

lemma varyingMeta_ok (M : Live L W m K) : Keyed varyingMeta ∧
    ∀ e ∈ varyingMeta, (attrNum M e.1).isSome = true := by
  refine ⟨by unfold Keyed dkeys; decide, ?_⟩
  intro e he
  simp only [varyingMeta, List.mem_cons, List.not_mem_nil, or_false] at he
  rcases he with rfl | rfl | rfl | rfl <;> rfl

lemma entries_known (ops : List (GridFlag × Bool)) (S : State L W K) :
    ∀ e ∈ gridsAfter ops, (attrGrid S e.2).isSome = true := by
  rintro ⟨k, a⟩ he
  obtain ⟨f, -, hf⟩ := gridsAfter_entry (dget_of_mem (keyed_gridsAfter ops) he)
  exact ((C54_content S f).2 _ hf).2

lemma writeRecords_snoc (F : SaveSet) (M : Live L W m K) : ∀ (Ms : List (Live L W m K)) (i : ℕ)
    (f f1 : NcFile L W K), writeRecords F Ms i f = (f1, none) →
    writeRecords F (Ms ++ [M]) i f = writeRecord F M (i + Ms.length) f1 := by
  intro Ms
  induction Ms with
  | nil =>
    intro i f f1 h
    simp only [writeRecords, Prod.mk.injEq, and_true] at h
    subst h
    simp only [List.nil_append, writeRecords, List.length_nil, add_zero]
    generalize writeRecord F M i f = r
    obtain ⟨a, _ | e⟩ := r <;> rfl
  | cons A Ms ih =>
    intro i f f1 h
    simp only [writeRecords, List.cons_append] at h ⊢
    generalize writeRecord F A i f = r at h ⊢
    obtain ⟨a, _ | e⟩ := r
    · simp only at h ⊢
      rw [ih _ _ _ h, List.length_cons]
      congr 1
      omega
    · simp at h

/-- The data of a variable after one more record. -/
lemma update_getElem? {A B : Type*} (Ms : List A) (M : A) (g : A → Option B) :
    Function.update (fun i => (Ms[i]?).bind g) Ms.length (g M) = fun i => ((Ms ++ [M])[i]?).bind g := by
  funext i
  rcases lt_trichotomy i Ms.length with h | h | h
  · rw [Function.update_of_ne (by omega), List.getElem?_append_left h]
  · subst h
    simp
  · rw [Function.update_of_ne (by omega), List.getElem?_eq_none (by omega),
      List.getElem?_eq_none (by simp; omega)]

/-- Data of the file after the records of `Ms`, in terms of the list of variables. -/
structure Filled (legacy : Bool) (F : SaveSet) (M0 : Live L W m K) (Ms : List (Live L W m K))
    (f : NcFile L W K) : Prop where
  dims : f.dims = ncDims L W legacy
  time : f.time = ⟨some "second", fun i => (Ms[i]?).bind fun M => some M.S.time⟩
  x : f.x = (some "meter", (coords legacy M0.I.dx).1)
  y : f.y = (some "meter", (coords legacy M0.I.dx).2)
  keys : dkeys f.vars = dkeys F.vars
  vars : ∀ k a, dget F.vars k = some a → dget f.vars k =
    some ⟨some (varUnits k), fun i => (Ms[i]?).bind fun M => attrGrid M.S a⟩
  fixed : f.fixed = fixedMeta M0
  vkeys : dkeys f.varying = dkeys varyingMeta
  varying : ∀ k u, dget varyingMeta k = some u → dget f.varying k =
    some ⟨some u, fun i => (Ms[i]?).bind fun M => attrNum M k⟩

lemma dget_mapk {V U : Type*} (f : String → V → U) (d : Dict V) (k : String) :
    dget (d.map (fun q => (q.1, f q.1 q.2))) k = (dget d k).map (f k) := by
  induction d with
  | nil => rfl
  | cons p d ih =>
    obtain ⟨a, v⟩ := p
    simp only [List.map_cons, dget]
    split_ifs with h
    · subst h; rfl
    · exact ih

lemma filled_fresh (legacy : Bool) (F : SaveSet) (hm : F.metadata = true) (M0 : Live L W m K) :
    Filled legacy F M0 [] (freshFile legacy F M0) where
  dims := rfl
  time := rfl
  x := rfl
  y := rfl
  keys := by simp [freshFile, dkeys, Function.comp_def]
  vars := by
    intro k a h
    simp only [freshFile]
    have := dget_mapk (fun k (_ : String) => (⟨some (varUnits k), fun _ => none⟩ : NcVar (Grid L W K)))
      F.vars k
    rw [this, h]
    rfl
  fixed := by simp [freshFile, hm]
  vkeys := by simp [freshFile, hm, dkeys, Function.comp_def]
  varying := by
    intro k u h
    simp only [freshFile, hm, if_true]
    have := dget_mapk (fun _ (u : String) => (⟨some u, fun _ => none⟩ : NcVar K)) varyingMeta k
    rw [this, h]
    rfl

lemma filled_write {legacy : Bool} {F : SaveSet} {M0 M : Live L W m K} {Ms : List (Live L W m K)}
    {f : NcFile L W K} (hf : Filled legacy F M0 Ms f) (hm : F.metadata = true)
    (hg : F.anyGrids = false → F.vars = []) (hk : Keyed F.vars)
    (ha : ∀ e ∈ F.vars, (attrGrid M.S e.2).isSome = true) :
    ∃ f', writeRecord F M Ms.length f = (f', none) ∧ Filled legacy F M0 (Ms ++ [M]) f' := by
  unfold writeRecord
  simp only [hm, Bool.true_or, if_true]
  set f1 : NcFile L W K := { f with time := f.time.write Ms.length M.S.time } with hf1
  have hgrid : ∃ vs, (if F.anyGrids then writeGrids M.S Ms.length F.vars f1 else (f1, none)) =
      ({ f1 with vars := vs }, none) ∧ dkeys vs = dkeys f1.vars ∧
      ∀ k, dget vs k = match dget F.vars k with
        | none => dget f1.vars k
        | some a => (dget f1.vars k).map fun v =>
          ⟨v.units, Function.update v.data Ms.length (attrGrid M.S a)⟩ := by
    cases hany : F.anyGrids with
    | false =>
      refine ⟨f1.vars, rfl, rfl, fun k => ?_⟩
      rw [hg hany]
      rfl
    | true =>
      simp only [if_true]
      refine writeGrids_ok hk ha (fun e he => ?_)
      have : dkeys f1.vars = dkeys F.vars := hf.keys
      rw [this]
      exact mem_dkeys.2 ⟨_, dget_of_mem hk he⟩
  obtain ⟨vs, h1, h2, h3⟩ := hgrid
  rw [h1]
  simp only
  obtain ⟨c1, c2⟩ := varyingMeta_ok M
  obtain ⟨ws, k1, k2, k3⟩ := writeMeta_ok (M := M) (i := Ms.length) c1 c2
    (f := { f1 with vars := vs }) (fun e he => by
      have : dkeys ({ f1 with vars := vs } : NcFile L W K).varying = dkeys varyingMeta := hf.vkeys
      rw [this]
      exact mem_dkeys.2 ⟨_, dget_of_mem c1 he⟩)
  refine ⟨_, k1, ?_⟩
  constructor
  · exact hf.dims
  · simp only [hf1, hf.time, NcVar.write]
    congr 1
    exact update_getElem? Ms M fun M => some M.S.time
  · exact hf.x
  · exact hf.y
  · simp only
    rw [h2]
    exact hf.keys
  · intro k a h
    simp only
    rw [h3 k, h]
    simp only
    have : f1.vars = f.vars := rfl
    rw [this, hf.vars k a h]
    simp only [Option.map_some]
    rw [← update_getElem? Ms M fun M => attrGrid M.S a]
  · exact hf.fixed
  · simp only
    rw [k2]
    exact hf.vkeys
  · intro k u h
    simp only
    rw [k3 k, h]
    simp only
    rw [hf1]
    simp only
    rw [hf.varying k u h]
    simp only [Option.map_some]
    rw [← update_getElem? Ms M fun M => attrNum M k]

lemma filled_writes {legacy : Bool} {F : SaveSet} {M0 : Live L W m K} (hm : F.metadata = true)
    (hg : F.anyGrids = false → F.vars = []) (hk : Keyed F.vars)
    (ha : ∀ (S : State L W K), ∀ e ∈ F.vars, (attrGrid S e.2).isSome = true) (Ms : List (Live L W m K)) :
    ∃ f, writeRecords F Ms 0 (freshFile legacy F M0) = (f, none) ∧ Filled legacy F M0 Ms f := by
  induction Ms using List.reverseRecOn with
  | nil => exact ⟨_, rfl, filled_fresh legacy F hm M0⟩
  | append_singleton Ms M ih =>
    obtain ⟨f, h1, h2⟩ := ih
    obtain ⟨f', h3, h4⟩ := filled_write h2 hm hg hk (ha M.S)
    exact ⟨f', by rw [writeRecords_snoc F M Ms 0 _ _ h1, zero_add, h3], h4⟩

/-! ## C75 -/

lemma range_line (n : ℕ) (dx : K) :
    ((List.range n).map fun i : ℕ => (i : K) * dx).length = n ∧
    ∀ i < n, ((List.range n).map fun i : ℕ => (i : K) * dx)[i]? = some (i * dx) := by
  refine ⟨by simp, fun i hi => ?_⟩
  simp [hi]

lemma toI8_spec (x : K) : |((toI8 x : ℤ) : K)| ≤ |x| ∧ |x - toI8 x| < 1 := by
  unfold toI8
  split_ifs with h
  · have h1 := Int.floor_le x
    have h2 := Int.lt_floor_add_one x
    have h3 : (0 : K) ≤ ⌊x⌋ := by exact_mod_cast Int.floor_nonneg.2 h
    rw [abs_of_nonneg h3, abs_of_nonneg h, abs_of_nonneg (by linarith)]
    exact ⟨h1, by linarith⟩
  · push Not at h
    have h1 := Int.le_ceil x
    have h2 := Int.ceil_lt_add_one x
    have h3 : ((⌈x⌉ : ℤ) : K) ≤ 0 := by exact_mod_cast Int.ceil_le.2 (by simpa using h.le)
    rw [abs_of_nonpos h3, abs_of_neg h, abs_of_nonpos (by linarith)]
    exact ⟨by linarith, by linarith⟩

lemma fixedMeta_ok (M : Live L W m K) : FixedOk M (fixedMeta M) := by
  refine ⟨⟨_, rfl⟩, ⟨_, rfl⟩, ⟨_, rfl⟩, ⟨_, rfl⟩, ⟨_, rfl⟩, ⟨_, _, rfl, resolveHb_cases M.I⟩, ⟨_, rfl⟩, ?_, ?_, ?_⟩
  · intro h
    unfold fixedMeta
    rw [if_pos h]
    exact ⟨_, rfl⟩
  · intro h
    unfold fixedMeta
    rw [if_pos h]
    exact ⟨_, _, rfl, toI8_spec _⟩
  · intro h
    unfold fixedMeta
    rw [if_neg (by rw [h]; decide)]
    exact ⟨rfl, rfl⟩

lemma fixedMeta_units (M : Live L W m K) {k : String} {v : Option String × MetaVal L W K}
    (h : dget (fixedMeta M) k = some v) : v.1.isSome = true := by
  have := mem_of_dget h
  unfold fixedMeta at this
  split_ifs at this <;>
  simp only [List.append_nil, List.mem_append, List.mem_cons, List.not_mem_nil, or_false,
    Prod.mk.injEq] at this <;>
  aesop

lemma varUnits_doc {f : GridFlag} {k : String} (h : k ∈ askedFor f) : varUnits k = documentedUnits k := by
  have : ∀ f : GridFlag, ∀ k ∈ askedFor f, varUnits k = documentedUnits k := by
    intro f
    cases f <;> decide
  exact this f k h

lemma no_flag {ops : List (GridFlag × Bool)} (h : anyGrids ops = false) : gridsAfter ops = [] := by
  cases hg : gridsAfter ops with
  | nil => rfl
  | cons p l =>
    obtain ⟨k, a⟩ := p
    have : dget (gridsAfter ops) k = some a := by rw [hg]; simp [dget]
    obtain ⟨f, hf, -⟩ := gridsAfter_entry this
    have := (anyGrids_iff ops).2 ⟨f, hf⟩
    rw [h] at this
    simp at this

/-- The output file of a model with a file (grids asked for or `save_metadata`), whatever the settings and
the fields at each save. -/
theorem C75_file (legacy clobber : Bool) (ops : List (GridFlag × Bool)) (metadata : Bool)
    (hfile : metadata = true ∨ ∃ g, lastSet ops g = some true) (M0 : Live L W m K)
    (Ms : List (Live L W m K)) (found : Option (NcFile L W K)) (hfound : found = none ∨ clobber = true) :
    ∃ f0 f, initFile legacy clobber (saveSet ops metadata) M0 found = .ok (some f0) ∧
      writeRecords (saveSet ops metadata) Ms 0 f0 = (f, none) ∧
      FileOk legacy (fun g => lastSet ops g = some true) M0 Ms f ∧ UnitsOk f := by
  set F := saveSet ops metadata with hF
  have hm : F.metadata = true := by
    simp only [hF, saveSet, Bool.or_eq_true]
    rcases hfile with h | ⟨g, h⟩
    · exact .inl h
    · exact .inr ((anyGrids_iff ops).2 ⟨g, (flagValue_iff ops g).2 h⟩)
  obtain ⟨f, h1, h2⟩ := filled_writes (legacy := legacy) (M0 := M0) hm (fun h => no_flag h)
    (keyed_gridsAfter ops) (fun S => entries_known ops S) Ms
  refine ⟨freshFile legacy F M0, f, ?_, h1, ?_, ?_⟩
  · unfold initFile
    rw [hm]
    rcases hfound with rfl | rfl <;> simp
  · constructor
    · rw [h2.time]
      funext i
      simp only
      cases Ms[i]? <;> rfl
    · intro g hg name hn
      obtain ⟨hc1, hc2⟩ := C54_content M0.S g
      rw [← hc1, List.mem_map] at hn
      obtain ⟨e, he, rfl⟩ := hn
      refine ⟨some (varUnits e.1), ?_⟩
      rw [h2.vars e.1 e.2 ((C54_grids ops g e he).1 hg)]
      congr 2
      funext i
      cases Ms[i]? with
      | none => rfl
      | some M => exact ((C54_content M.S g).2 e he).1
    · intro name hn
      rw [h2.keys] at hn
      obtain ⟨a, ha⟩ := mem_dkeys.1 hn
      obtain ⟨g, hg, he⟩ := gridsAfter_entry ha
      exact ⟨g, (flagValue_iff ops g).1 hg,
        (C54_content M0.S g).1 ▸ List.mem_map_of_mem (f := Prod.fst) he⟩
    · exact h2.dims
    · rintro rfl
      exact ⟨_, by rw [h2.x]; rfl, range_line L M0.I.dx⟩
    · rintro rfl
      exact ⟨_, by rw [h2.y]; rfl, range_line W M0.I.dx⟩
    · rintro rfl
      rw [h2.x]
      rfl
    · rintro rfl
      rw [h2.y]
      rfl
    · rw [h2.fixed]
      exact fixedMeta_ok M0
    · constructor
      · exact ⟨_, (h2.varying "H_SL" _ rfl).trans (by congr; funext i; cases Ms[i]? <;> rfl)⟩
      · exact ⟨_, (h2.varying "f_bedload" _ rfl).trans (by congr; funext i; cases Ms[i]? <;> rfl)⟩
      · exact ⟨_, (h2.varying "C0_percent" _ rfl).trans (by congr; funext i; cases Ms[i]? <;> rfl)⟩
      · exact ⟨_, (h2.varying "u0" _ rfl).trans (by congr; funext i; cases Ms[i]? <;> rfl)⟩
      · exact h2.vkeys
  · constructor
    · rw [h2.time]
    · rw [h2.x]
    · rw [h2.y]
    · intro name v hv
      have hn : name ∈ dkeys (gridsAfter ops) := by
        have := mem_dkeys.2 ⟨v, hv⟩
        rwa [h2.keys] at this
      obtain ⟨a, ha⟩ := mem_dkeys.1 hn
      obtain ⟨g, hg, he⟩ := gridsAfter_entry ha
      rw [h2.vars name a ha, Option.some.injEq] at hv
      subst hv
      rw [varUnits_doc ((C54_content M0.S g).1 ▸ List.mem_map_of_mem (f := Prod.fst) he)]
    · intro name v hv
      rw [h2.fixed] at hv
      exact fixedMeta_units M0 hv
    · intro name v hv
      have hn : name ∈ dkeys varyingMeta := by
        have := mem_dkeys.2 ⟨v, hv⟩
        rwa [h2.vkeys] at this
      obtain ⟨a, ha⟩ := mem_dkeys.1 hn
      rw [h2.varying name a ha, Option.some.injEq] at hv
      subst hv
      rfl

/-- An existing file is not replaced unless that was asked for. -/
theorem C75_exists (legacy : Bool) (F : SaveSet) (M0 : Live L W m K) (f : NcFile L W K)
    (h : F.metadata = true ∨ F.anyGrids = true) :
    initFile legacy false F M0 (some f) = .error .fileExists := by
  unfold initFile
  have : (F.metadata || F.anyGrids) = true := by simpa using h
  simp [this]

/-- Without grids and `save_metadata` there is no file. -/
theorem C75_none (legacy clobber : Bool) (ops : List (GridFlag × Bool))
    (h : ∀ g, lastSet ops g ≠ some true) (M0 : Live L W m K) (found : Option (NcFile L W K)) :
    initFile legacy clobber (saveSet ops false) M0 found = .ok found := by
  have : anyGrids ops = false := by
    by_contra hc
    rw [Bool.not_eq_false, anyGrids_iff] at hc
    obtain ⟨g, hg⟩ := hc
    exact h g ((flagValue_iff ops g).1 hg)
  simp [initFile, saveSet, this]

/-! ## C75 for a run -/

/-- C75 for a run with `n` updates: record number `i` of every variable is the field
after `i` times `p` timesteps, where `p` timesteps make up the interval of saving. -/
theorem C75_run [NeZero L] [NeZero W] (I : Input K) (D : Derived K) {P : Params L W m K}
    {S : State L W K} (hdt : 0 < P.dt) {g : Rng K σ}
    {cfg : OutCfg K} {n : ℕ} {s : σ} {M : Sim L W K σ}
    (hr : updates g cfg (List.replicate n P) (startSim cfg S s) = .ok M) (legacy : Bool)
    (ops : List (GridFlag × Bool)) (metadata : Bool)
    (hfile : metadata = true ∨ ∃ f, lastSet ops f = some true) :
    ∃ f, writeRecords (saveSet ops metadata)
        (M.saves.map fun w => (⟨I, D, P, w.2.state⟩ : Live L W m K)) 0
        (freshFile legacy (saveSet ops metadata) ⟨I, D, P, S⟩) = (f, none) ∧
      (∀ i, i * max 1 ⌈cfg.saveDt / P.dt⌉₊ ≤ n → ∃ S' ls s',
        timesteps g (List.replicate (i * max 1 ⌈cfg.saveDt / P.dt⌉₊) P) S s = .ok (S', ls, s') ∧
        f.time.data i = some S'.time ∧
        (∀ fl, lastSet ops fl = some true → ∀ name ∈ askedFor fl,
          (dget f.vars name).map (·.data i) = some (documentedGrid S' name)) ∧
        (dget f.varying "H_SL").map (·.data i) = some (some S'.HSL)) ∧
      ∀ i, n < i * max 1 ⌈cfg.saveDt / P.dt⌉₊ → f.time.data i = none := by
  obtain ⟨f0, f, h0, h1, h2, -⟩ := C75_file legacy false ops metadata hfile
    (⟨I, D, P, S⟩ : Live L W m K) (M.saves.map fun w => ⟨I, D, P, w.2.state⟩) none (.inl rfl)
  have e0 : f0 = freshFile legacy (saveSet ops metadata) ⟨I, D, P, S⟩ := by
    unfold initFile at h0
    split_ifs at h0 with ha hb
    · simpa using h0.symm
    · simp at h0
  subst e0
  obtain ⟨hlen, hs⟩ := C39_constant hr (dt := P.dt) (fun Q hQ => by rw [List.eq_of_mem_replicate hQ]) hdt
  rw [List.length_replicate] at hlen
  set p := max 1 ⌈cfg.saveDt / P.dt⌉₊ with hp
  have hp0 : 0 < p := by omega
  refine ⟨f, h1, fun i hi => ?_, fun i hi => ?_⟩
  · have hlt : i < M.saves.length := by
      rw [hlen]
      exact Nat.lt_succ_of_le ((Nat.le_div_iff_mul_le hp0).2 hi)
    obtain ⟨-, ht, ls, s', hts⟩ := hs i hlt
    rw [List.take_replicate, min_eq_left hi] at hts
    refine ⟨M.saves[i].2.state, ls, s', hts, ?_, ?_, ?_⟩
    · rw [h2.time]
      simp [hlt]
    · intro fl hfl name hn
      obtain ⟨u, hu⟩ := h2.grids fl hfl name hn
      rw [hu]
      simp [hlt]
    · obtain ⟨u, hu⟩ := h2.varying.sea
      rw [hu]
      simp [hlt]
  · rw [h2.time]
    have : M.saves.length ≤ i := by
      rw [hlen]
      exact (Nat.div_lt_iff_lt_mul hp0).2 hi
    simp [this]

/-! ## C76: resuming -/

/-- C76: the copy of the file made on resume has the same dimensions, coordinates, records and metadata.
Partial: C76 claims this of the units too, see `C76_units_lost`. -/
theorem C76_copy_partial (f : NcFile L W K) : SameContents f (copyFile f) := by
  constructor
  · rfl
  · rfl
  · rfl
  · rfl
  · intro name
    simp only [copyFile]
    rw [dget_map (fun v : NcVar (Grid L W K) => (⟨none, v.data⟩ : NcVar (Grid L W K)))]
    cases dget f.vars name <;> rfl
  · intro name
    simp only [copyFile]
    rw [dget_map (fun v : Option String × MetaVal L W K => ((none, v.2) : Option String × MetaVal L W K))]
    cases dget f.fixed name <;> rfl
  · intro name
    simp only [copyFile]
    rw [dget_map (fun v : NcVar K => (⟨none, v.data⟩ : NcVar K))]
    cases dget f.varying name <;> rfl

/-- C76 fails: no variable of the copy has units. -/
theorem C76_units_lost (f : NcFile L W K) :
    (copyFile f).time.units = none ∧ (copyFile f).x.1 = none ∧ (copyFile f).y.1 = none ∧
    (∀ name v, dget (copyFile f).vars name = some v → v.units = none) ∧
    (∀ name v, dget (copyFile f).fixed name = some v → v.1 = none) ∧
    (∀ name v, dget (copyFile f).varying name = some v → v.units = none) ∧ ¬ UnitsOk (copyFile f) := by
  refine ⟨rfl, rfl, rfl, ?_, ?_, ?_, fun h => by simpa [copyFile] using h.time⟩
  · intro name v h
    simp only [copyFile] at h
    rw [dget_map (fun v : NcVar (Grid L W K) => (⟨none, v.data⟩ : NcVar (Grid L W K)))] at h
    cases hd : dget f.vars name <;> simp [hd] at h
    subst h; rfl
  · intro name v h
    simp only [copyFile] at h
    rw [dget_map (fun v : Option String × MetaVal L W K => ((none, v.2) : Option String × MetaVal L W K))]
      at h
    cases hd : dget f.fixed name <;> simp [hd] at h
    subst h; rfl
  · intro name v h
    simp only [copyFile] at h
    rw [dget_map (fun v : NcVar K => (⟨none, v.data⟩ : NcVar K))] at h
    cases hd : dget f.varying name <;> simp [hd] at h
    subst h; rfl

/-! ## C77: flags changed later -/

lemma writeGrids_err {S : State L W K} {i : ℕ} {es : List (String × String)}
    (ha : ∀ e ∈ es, (attrGrid S e.2).isSome = true) : ∀ {f : NcFile L W K},
    (∃ e ∈ es, e.1 ∉ dkeys f.vars) → ∃ f' k, writeGrids S i es f = (f', some (.noVariable k)) ∧
      k ∈ dkeys es ∧ k ∉ dkeys f.vars := by
  induction es with
  | nil => rintro f ⟨e, he, -⟩; simp at he
  | cons p es ih =>
    obtain ⟨k0, a⟩ := p
    rintro f ⟨e, he, hne⟩
    obtain ⟨g, hg⟩ := Option.isSome_iff_exists.1 (ha _ List.mem_cons_self)
    simp only at hg
    cases hv : dget f.vars k0 with
    | none => exact ⟨f, k0, by simp only [writeGrids, hg, hv], by simp [dkeys], dget_none.1 hv⟩
    | some v =>
      have hm : k0 ∈ dkeys f.vars := mem_dkeys.2 ⟨v, hv⟩
      obtain ⟨f', k, h1, h2, h3⟩ := ih (fun e he => ha e (List.mem_cons_of_mem _ he))
        (f := { f with vars := dset f.vars k0 (v.write i g) }) (by
          rcases List.mem_cons.1 he with rfl | h
          · exact absurd hm hne
          · exact ⟨e, h, by simpa only [dkeys_dset_mem hm] using hne⟩)
      refine ⟨f', k, by simp only [writeGrids, hg, hv, h1], ?_, ?_⟩
      · simp only [dkeys, List.map_cons, List.mem_cons] at h2 ⊢
        exact .inr h2
      · simpa only [dkeys_dset_mem hm] using h3

/-- The list of variables when a flag was assigned after the file was made: `_save_any_grids` and
`_save_metadata` stay. -/
def reassigned (ops : List (GridFlag × Bool)) (metadata : Bool) (later : List (GridFlag × Bool)) : SaveSet :=
  { saveSet ops metadata with vars := gridsAfter (ops ++ later) }

/-- C77: if only flags are switched off, saving goes on: the variables that are still asked for get their
record, the others keep what they have, and the rest of the file is as it would be.
Partial: C77 claims that flags can be switched on too, see `C77_on_fails` and `C77_on_ignored`. -/
theorem C77_off_partial (legacy : Bool) (ops later : List (GridFlag × Bool)) (metadata : Bool)
    (hfile : metadata = true ∨ ∃ g, lastSet ops g = some true)
    (hoff : ∀ g, lastSet (ops ++ later) g = some true → lastSet ops g = some true)
    (M0 M : Live L W m K) (Ms : List (Live L W m K)) (f : NcFile L W K)
    (hf : writeRecords (saveSet ops metadata) Ms 0 (freshFile legacy (saveSet ops metadata) M0) =
      (f, none)) :
    ∃ f', writeRecord (reassigned ops metadata later) M Ms.length f = (f', none) ∧
      f'.time.data Ms.length = some M.S.time ∧
      (∀ g, lastSet (ops ++ later) g = some true → ∀ name ∈ askedFor g,
        (dget f'.vars name).map (·.data Ms.length) = some (documentedGrid M.S name)) ∧
      (∀ name, (∀ g, lastSet (ops ++ later) g = some true → name ∉ askedFor g) →
        dget f'.vars name = dget f.vars name) ∧
      ∀ name i, i ≠ Ms.length →
        (dget f'.vars name).map (·.data i) = (dget f.vars name).map (·.data i) := by
  have hm : (saveSet ops metadata).metadata = true := by
    simp only [saveSet, Bool.or_eq_true]
    rcases hfile with h | ⟨g, h⟩
    · exact .inl h
    · exact .inr ((anyGrids_iff ops).2 ⟨g, (flagValue_iff ops g).2 h⟩)
  obtain ⟨f1, h1, h2⟩ := filled_writes (legacy := legacy) (M0 := M0) hm (fun h => no_flag h)
    (keyed_gridsAfter ops) (fun S => entries_known ops S) Ms
  rw [hf] at h1
  obtain ⟨rfl, -⟩ := Prod.mk.injEq _ _ _ _ ▸ h1
  have hsub : ∀ k a, dget (gridsAfter (ops ++ later)) k = some a → dget (gridsAfter ops) k = some a := by
    intro k a h
    obtain ⟨g, hg, he⟩ := gridsAfter_entry h
    exact (C54_grids ops g (k, a) he).1 (hoff g ((flagValue_iff _ g).1 hg))
  set es := gridsAfter (ops ++ later) with hes
  have hk : Keyed es := keyed_gridsAfter _
  unfold writeRecord
  have e1 : (reassigned ops metadata later).metadata = true := hm
  have e2 : (reassigned ops metadata later).vars = es := rfl
  have e3 : (reassigned ops metadata later).anyGrids = anyGrids ops := rfl
  simp only [e1, e2, e3, Bool.true_or, if_true]
  set f1 : NcFile L W K := { f with time := f.time.write Ms.length M.S.time } with hf1
  have hgrid : ∃ vs, (if anyGrids ops then writeGrids M.S Ms.length es f1 else (f1, none)) =
      ({ f1 with vars := vs }, none) ∧ dkeys vs = dkeys f1.vars ∧
      ∀ k, dget vs k = match dget es k with
        | none => dget f1.vars k
        | some a => (dget f1.vars k).map fun v =>
          ⟨v.units, Function.update v.data Ms.length (attrGrid M.S a)⟩ := by
    cases hany : anyGrids ops with
    | false =>
      refine ⟨f1.vars, rfl, rfl, fun k => ?_⟩
      have : dget es k = none := by
        cases he : dget es k with
        | none => rfl
        | some a =>
          have := hsub k a he
          rw [no_flag hany] at this
          simp [dget] at this
      rw [this]
    | true =>
      simp only [if_true]
      refine writeGrids_ok hk (entries_known _ M.S) (fun e he => ?_)
      have : dkeys f1.vars = dkeys (gridsAfter ops) := h2.keys
      rw [this]
      exact mem_dkeys.2 ⟨_, hsub e.1 e.2 (dget_of_mem hk he)⟩
  obtain ⟨vs, g1, g2, g3⟩ := hgrid
  rw [g1]
  simp only
  obtain ⟨c1, c2⟩ := varyingMeta_ok M
  obtain ⟨ws, k1, k2, k3⟩ := writeMeta_ok (M := M) (i := Ms.length) c1 c2
    (f := { f1 with vars := vs }) (fun e he => by
      have : dkeys ({ f1 with vars := vs } : NcFile L W K).varying = dkeys varyingMeta := h2.vkeys
      rw [this]
      exact mem_dkeys.2 ⟨_, dget_of_mem c1 he⟩)
  refine ⟨_, k1, ?_, ?_, ?_, ?_⟩
  · simp [hf1, NcVar.write]
  · intro g hg name hn
    obtain ⟨hc1, hc2⟩ := C54_content M.S g
    rw [← hc1, List.mem_map] at hn
    obtain ⟨e, he, rfl⟩ := hn
    have ha := (C54_grids (ops ++ later) g e he).1 hg
    simp only
    rw [g3, show dget es e.1 = some e.2 from ha]
    simp only
    have : f1.vars = f.vars := rfl
    rw [this, h2.vars e.1 e.2 (hsub _ _ ha)]
    simp [(hc2 e he).1]
  · intro name hn
    simp only
    rw [g3]
    have : dget es name = none := by
      cases he : dget es name with
      | none => rfl
      | some a =>
        obtain ⟨g, hg, hm⟩ := gridsAfter_entry he
        exact absurd ((C54_content M.S g).1 ▸ List.mem_map_of_mem (f := Prod.fst) hm)
          (hn g ((flagValue_iff _ g).1 hg))
    rw [this]
  · intro name i hi
    simp only
    rw [g3]
    cases dget es name with
    | none => rfl
    | some a =>
      have : f1.vars = f.vars := rfl
      simp only [this]
      cases dget f.vars name with
      | none => rfl
      | some v => simp [Function.update_of_ne hi]

/-- C77 fails: if the file has grids, the first save after another grid was switched on raises an
exception. -/
theorem C77_on_fails (legacy : Bool) (ops later : List (GridFlag × Bool)) (metadata : Bool)
    (hfile : ∃ g, lastSet ops g = some true) {g : GridFlag} (h1 : lastSet ops g ≠ some true)
    (h2 : lastSet (ops ++ later) g = some true)
    (M0 M : Live L W m K) (Ms : List (Live L W m K)) (f : NcFile L W K)
    (hf : writeRecords (saveSet ops metadata) Ms 0 (freshFile legacy (saveSet ops metadata) M0) =
      (f, none)) :
    ∃ f' k, writeRecord (reassigned ops metadata later) M Ms.length f = (f', some (.noVariable k)) ∧
      k ∉ dkeys f.vars := by
  have hany : anyGrids ops = true := by
    obtain ⟨g, h⟩ := hfile
    exact (anyGrids_iff ops).2 ⟨g, (flagValue_iff ops g).2 h⟩
  have hm : (saveSet ops metadata).metadata = true := by simp [saveSet, hany]
  obtain ⟨f1, k1, k2⟩ := filled_writes (legacy := legacy) (M0 := M0) hm (fun h => no_flag h)
    (keyed_gridsAfter ops) (fun S => entries_known ops S) Ms
  rw [hf] at k1
  obtain ⟨rfl, -⟩ := Prod.mk.injEq _ _ _ _ ▸ k1
  have hne : g.entries ≠ [] := by cases g <;> simp [GridFlag.entries]
  obtain ⟨e, he⟩ := List.exists_mem_of_ne_nil _ hne
  have hin := (C54_grids (ops ++ later) g e he).1 h2
  have hout := (C54_grids ops g e he).2 h1
  obtain ⟨f', k, w1, w2, w3⟩ := writeGrids_err (S := M.S) (i := Ms.length) (entries_known (ops ++ later) M.S)
    (f := { f with time := f.time.write Ms.length M.S.time })
    ⟨(e.1, e.2), mem_of_dget hin, by
      have : dkeys f.vars = dkeys (gridsAfter ops) := k2.keys
      simp only [this]
      exact dget_none.1 hout⟩
  refine ⟨f', k, ?_, w3⟩
  unfold writeRecord
  have e1 : (reassigned ops metadata later).metadata = true := hm
  have e2 : (reassigned ops metadata later).vars = gridsAfter (ops ++ later) := rfl
  have e3 : (reassigned ops metadata later).anyGrids = true := hany
  simp only [e1, e2, e3, Bool.true_or, if_true, w1]

/-- C77 fails: if the file has metadata only, a grid that is switched on later is never saved. -/
theorem C77_on_ignored (legacy : Bool) (ops later : List (GridFlag × Bool))
    (hno : ∀ g, lastSet ops g ≠ some true) (M0 : Live L W m K) (Ms : List (Live L W m K)) :
    ∃ f, writeRecords (reassigned ops true later) Ms 0 (freshFile legacy (saveSet ops true) M0) =
      (f, none) ∧ f.vars = [] ∧ f.time.data = fun i => (Ms[i]?).map (·.S.time) := by
  have hany : anyGrids ops = false := by
    by_contra hc
    rw [Bool.not_eq_false, anyGrids_iff] at hc
    obtain ⟨g, hg⟩ := hc
    exact hno g ((flagValue_iff ops g).1 hg)
  have key : ∀ (Ms : List (Live L W m K)) (i : ℕ) (f : NcFile L W K),
      writeRecords (reassigned ops true later) Ms i f = writeRecords (saveSet ops true) Ms i f := by
    intro Ms
    induction Ms with
    | nil => intro i f; rfl
    | cons A Ms ih =>
      intro i f
      have e : writeRecord (reassigned ops true later) A i f = writeRecord (saveSet ops true) A i f := by
        simp [writeRecord, reassigned, saveSet, hany]
      simp only [writeRecords, e, ih]
  rw [key]
  have hm : (saveSet ops true).metadata = true := rfl
  obtain ⟨f, k1, k2⟩ := filled_writes (legacy := legacy) (M0 := M0) hm (fun h => no_flag h)
    (keyed_gridsAfter ops) (fun S => entries_known ops S) Ms
  refine ⟨f, k1, ?_, ?_⟩
  · have := k2.keys
    rw [show (saveSet ops true).vars = [] from no_flag hany] at this
    simpa [dkeys] using this
  · rw [k2.time]
    funext i
    simp only
    cases Ms[i]? <;> rfl

/-- C76 fails for a run resumed with a further grid: the first save raises an exception, since the copy has
the variables of the old file only. -/
theorem C76_new_grid (legacy : Bool) (ops ops' : List (GridFlag × Bool)) (metadata metadata' : Bool)
    (hfile : metadata = true ∨ ∃ g, lastSet ops g = some true) {g : GridFlag}
    (h1 : lastSet ops g ≠ some true) (h2 : lastSet ops' g = some true)
    (M0 M : Live L W m K) (Ms : List (Live L W m K)) (i : ℕ) (f : NcFile L W K)
    (hf : writeRecords (saveSet ops metadata) Ms 0 (freshFile legacy (saveSet ops metadata) M0) =
      (f, none)) :
    ∃ f' k, writeRecord (saveSet ops' metadata') M i (copyFile f) = (f', some (.noVariable k)) ∧
      k ∉ dkeys f.vars := by
  have hm : (saveSet ops metadata).metadata = true := by
    simp only [saveSet, Bool.or_eq_true]
    rcases hfile with h | ⟨g, h⟩
    · exact .inl h
    · exact .inr ((anyGrids_iff ops).2 ⟨g, (flagValue_iff ops g).2 h⟩)
  have hany : anyGrids ops' = true := (anyGrids_iff ops').2 ⟨g, (flagValue_iff ops' g).2 h2⟩
  obtain ⟨f1, k1, k2⟩ := filled_writes (legacy := legacy) (M0 := M0) hm (fun h => no_flag h)
    (keyed_gridsAfter ops) (fun S => entries_known ops S) Ms
  rw [hf] at k1
  obtain ⟨rfl, -⟩ := Prod.mk.injEq _ _ _ _ ▸ k1
  have hkeys : dkeys (copyFile f).vars = dkeys f.vars := by
    simp [copyFile, dkeys, Function.comp_def]
  have hne : g.entries ≠ [] := by cases g <;> simp [GridFlag.entries]
  obtain ⟨e, he⟩ := List.exists_mem_of_ne_nil _ hne
  have hin := (C54_grids ops' g e he).1 h2
  have hout := (C54_grids ops g e he).2 h1
  obtain ⟨f', k, w1, w2, w3⟩ := writeGrids_err (S := M.S) (i := i) (entries_known ops' M.S)
    (f := { copyFile f with time := (copyFile f).time.write i M.S.time })
    ⟨(e.1, e.2), mem_of_dget hin, by
      have : dkeys f.vars = dkeys (gridsAfter ops) := k2.keys
      simp only [hkeys, this]
      exact dget_none.1 hout⟩
  refine ⟨f', k, ?_, by simpa only [hkeys] using w3⟩
  unfold writeRecord
  have e1 : (saveSet ops' metadata').metadata = true := by simp [saveSet, hany]
  have e2 : (saveSet ops' metadata').vars = gridsAfter ops' := rfl
  have e3 : (saveSet ops' metadata').anyGrids = true := hany
  simp only [e1, e2, e3, Bool.true_or, if_true, w1]

-- C75, C77: the defaults of pyDeltaRCM/default.yml save nothing; here bed and velocity components are saved
example : gridsAfter [(.eta, true), (.velocityComp, true), (.depth, false)] =
    [("eta", "eta"), ("velocity_x", "ux"), ("velocity_y", "uy")] := by decide
example : lastSet [(GridFlag.eta, true), (.velocityComp, true), (.depth, false)] .eta = some true ∧
    lastSet [(GridFlag.eta, true), (.velocityComp, true), (.depth, false)] .depth ≠ some true := by decide
-- a save after the stage was switched on: no such variable
example (M : Live 1 1 1 ℚ) : (writeRecord (reassigned [(.eta, true)] false [(.stage, true)]) M 0
    (freshFile false (saveSet [(.eta, true)] false) M)).2 = some (.noVariable "stage") := rfl

end Verif.Props
