import Verif.Spec.CustomSave
import Verif.Props.NcFile

/-!
# C109: figures, grids and metadata that a hook adds to the output
-/

set_option linter.unusedSectionVars false
set_option linter.unusedSimpArgs false

namespace Verif.Props

open Verif.Model Verif.Spec

variable {K : Type*} [Field K] [LinearOrder K] [IsStrictOrderedRing K] [FloorRing K] {σ : Type*}
  {L W m : ℕ}

/-! ## Making the file -/

lemma dget_append {V : Type*} (d e : Dict V) (k : String) :
    dget (d ++ e) k = match dget d k with
      | some v => some v
      | none => dget e k := by
  induction d with
  | nil => rfl
  | cons p d ih =>
    obtain ⟨a, v⟩ := p
    simp only [List.cons_append, dget]
    split_ifs
    · rfl
    · exact ih

lemma makeGrids_ok {legacy : Bool} : ∀ {es : Dict GridEntry} {d : Dict (NcVar (Grid L W K))},
    Keyed es → (∀ k ∈ dkeys es, k ∉ dkeys d ∧ k ∉ ["time", "x", "y"]) →
    (∀ k e, dget es k = some e → e.dims = gridDims legacy) →
    makeGrids legacy es d = .ok (d ++ es.map fun p => (p.1, ⟨some p.2.units, fun _ => none⟩))
  | [], d, _, _, _ => by simp [makeGrids]
  | (k, e) :: es, d, hk, hn, hd => by
    rw [keyed_cons] at hk
    have h1 := hn k (by simp [dkeys])
    have h2 := hd k e (by simp [dget])
    unfold makeGrids
    rw [if_neg (not_or.2 ⟨h1.2, h1.1⟩), if_neg (by rw [h2]; push Not; exact fun a ha => ha),
      makeGrids_ok hk.2 _ _]
    · simp
    · intro j hj
      have := hn j (by simp only [dkeys, List.map_cons, List.mem_cons] at hj ⊢; exact .inr hj)
      refine ⟨?_, this.2⟩
      simp only [dkeys, List.map_append, List.map_cons, List.map_nil, List.mem_append,
        List.mem_singleton, not_or]
      exact ⟨this.1, fun hjk => hk.1 (hjk ▸ hj)⟩
    · intro j e' hj
      refine hd j e' ?_
      simp only [dget]
      rw [if_neg, hj]
      rintro rfl
      exact hk.1 (mem_dkeys.2 ⟨_, hj⟩)

/-- Whatever the entries, a variable of the file that is made has the units of its entry and no record. -/
lemma makeGrids_get {legacy : Bool} : ∀ {es : Dict GridEntry} {d d' : Dict (NcVar (Grid L W K))},
    makeGrids legacy es d = .ok d' → ∀ k, dget d' k =
      match dget d k with
      | some v => some v
      | none => (dget es k).map fun e => ⟨some e.units, fun _ => none⟩
  | [], d, d', h, k => by
    simp only [makeGrids, Except.ok.injEq] at h
    subst h
    cases dget d k <;> simp [dget]
  | (j, e) :: es, d, d', h, k => by
    unfold makeGrids at h
    split_ifs at h with h1 h2
    rw [not_or] at h1
    rw [makeGrids_get h k, dget_append]
    cases hd : dget d k with
    | some v => simp
    | none =>
      simp only [dget]
      split_ifs with hjk <;> simp

lemma makeMetas_ok {X : SubModel L W m K} : ∀ {es : Dict MetaEntry},
    (∀ p ∈ es, ∀ a, p.2.attr = some a → (X.getAttr a).isSome = true) →
    ∃ f v, makeMetas X es = .ok (f, v)
  | [], _ => ⟨_, _, rfl⟩
  | (k, ⟨none, u⟩) :: es, h => by
    obtain ⟨f, v, e⟩ := makeMetas_ok (es := es) fun p hp => h p (List.mem_cons_of_mem _ hp)
    exact ⟨f, _, by simp only [makeMetas, e]; rfl⟩
  | (k, ⟨some a, u⟩) :: es, h => by
    obtain ⟨f, v, e⟩ := makeMetas_ok (es := es) fun p hp => h p (List.mem_cons_of_mem _ hp)
    obtain ⟨x, hx⟩ := Option.isSome_iff_exists.1 (h _ List.mem_cons_self a rfl)
    exact ⟨_, v, by simp only [makeMetas, hx, e]; rfl⟩

lemma makeMetas_get {X : SubModel L W m K} : ∀ {es : Dict MetaEntry} {f v},
    makeMetas X es = .ok (f, v) → Keyed es → ∀ k,
      (dget f k = (dget es k).bind fun e => e.attr.bind fun a => (X.getAttr a).map fun x => (some e.units, x)) ∧
      (dget v k = (dget es k).bind fun e =>
        if e.attr = none then some ⟨some e.units, fun _ => none⟩ else none)
  | [], f, v, h, _, k => by
    simp only [makeMetas, Except.ok.injEq, Prod.mk.injEq] at h
    obtain ⟨rfl, rfl⟩ := h
    simp [dget]
  | (j, ⟨none, u⟩) :: es, f, v, h, hk, k => by
    rw [keyed_cons] at hk
    simp only [makeMetas] at h
    generalize hm : makeMetas X es = r at h
    cases r with
    | error e => simp at h
    | ok fv =>
      obtain ⟨f1, v1⟩ := fv
      simp only [Except.ok.injEq, Prod.mk.injEq] at h
      obtain ⟨rfl, rfl⟩ := h
      have ih := makeMetas_get hm hk.2 k
      by_cases hjk : j = k
      · subst hjk
        have h0 : dget es j = none := dget_none.2 hk.1
        rw [h0] at ih
        simp only [dget, if_true]
        exact ⟨by simpa using ih.1, by simp⟩
      · simp only [dget, if_neg hjk]
        exact ih
  | (j, ⟨some a, u⟩) :: es, f, v, h, hk, k => by
    rw [keyed_cons] at hk
    simp only [makeMetas] at h
    generalize hx : X.getAttr a = o at h
    cases o with
    | none => simp at h
    | some x =>
      generalize hm : makeMetas X es = r at h
      cases r with
      | error e => simp at h
      | ok fv =>
        obtain ⟨f1, v1⟩ := fv
        simp only [Except.ok.injEq, Prod.mk.injEq] at h
        obtain ⟨rfl, rfl⟩ := h
        have ih := makeMetas_get hm hk.2 k
        by_cases hjk : j = k
        · subst hjk
          have h0 : dget es j = none := dget_none.2 hk.1
          rw [h0] at ih
          simp only [dget, if_true]
          exact ⟨by simp [hx], by simpa using ih.2⟩
        · simp only [dget, if_neg hjk]
          exact ih

/-! ## Writing to it -/

lemma saveGrids_same (legacy : Bool) (X : SubModel L W m K) (i : ℕ) : ∀ (es : Dict GridEntry) (f : NcFile L W K),
    (saveGrids legacy X i es f).1.fixed = f.fixed ∧ (saveGrids legacy X i es f).1.varying = f.varying ∧
    (saveGrids legacy X i es f).1.time = f.time ∧
    ∀ k, k ∉ dkeys es → dget (saveGrids legacy X i es f).1.vars k = dget f.vars k
  | [], f => ⟨rfl, rfl, rfl, fun _ _ => rfl⟩
  | (j, e) :: es, f => by
    unfold saveGrids
    generalize X.getAttr e.attr = o
    cases o with
    | none => exact ⟨rfl, rfl, rfl, fun _ _ => rfl⟩
    | some x =>
      generalize hv : dget f.vars j = ov
      cases ov with
      | none => exact ⟨rfl, rfl, rfl, fun _ _ => rfl⟩
      | some v =>
        simp only
        split_ifs with hd
        · obtain ⟨a, b, c, d⟩ := saveGrids_same legacy X i es
            { f with vars := dset f.vars j (v.write i x.asGrid) }
          refine ⟨a, b, c, fun k hk => ?_⟩
          simp only [dkeys, List.map_cons, List.mem_cons, not_or] at hk
          rw [d k hk.2]
          simp only [dget_dset, if_neg hk.1]
        · exact ⟨rfl, rfl, rfl, fun _ _ => rfl⟩

lemma saveMetas_same (X : SubModel L W m K) (i : ℕ) : ∀ (es : Dict MetaEntry) (f : NcFile L W K),
    (saveMetas X i es f).1.fixed = f.fixed ∧ (saveMetas X i es f).1.vars = f.vars ∧
    (saveMetas X i es f).1.time = f.time ∧
    ∀ k, k ∉ dkeys es → dget (saveMetas X i es f).1.varying k = dget f.varying k
  | [], f => ⟨rfl, rfl, rfl, fun _ _ => rfl⟩
  | (j, ⟨some a, u⟩) :: es, f => by
    obtain ⟨a, b, c, d⟩ := saveMetas_same X i es f
    simp only [saveMetas]
    refine ⟨a, b, c, fun k hk => d k ?_⟩
    simp only [dkeys, List.map_cons, List.mem_cons, not_or] at hk
    exact hk.2
  | (j, ⟨none, u⟩) :: es, f => by
    simp only [saveMetas]
    generalize X.getAttr j = o
    cases o with
    | none => exact ⟨rfl, rfl, rfl, fun _ _ => rfl⟩
    | some x =>
      simp only
      generalize dget f.varying j = ov
      generalize x.asNum = oy
      match ov, oy with
      | none, _ => exact ⟨rfl, rfl, rfl, fun _ _ => rfl⟩
      | some v, none => exact ⟨rfl, rfl, rfl, fun _ _ => rfl⟩
      | some v, some y =>
        obtain ⟨a, b, c, d⟩ := saveMetas_same X i es { f with varying := dset f.varying j (v.write i y) }
        refine ⟨a, b, c, fun k hk => ?_⟩
        simp only [dkeys, List.map_cons, List.mem_cons, not_or] at hk
        rw [d k hk.2]
        simp only [dget_dset, if_neg hk.1]

lemma saveGrids_ok {legacy : Bool} {X : SubModel L W m K} {i : ℕ} : ∀ {es : Dict GridEntry} {f : NcFile L W K},
    Keyed es → (∀ k e, dget es k = some e → e.dims = gridDims legacy ∧ (X.getAttr e.attr).isSome = true) →
    (∀ k ∈ dkeys es, k ∈ dkeys f.vars) →
    (saveGrids legacy X i es f).2 = none ∧
    dkeys (saveGrids legacy X i es f).1.vars = dkeys f.vars ∧
    ∀ k e x v, dget es k = some e → X.getAttr e.attr = some x → dget f.vars k = some v →
      dget (saveGrids legacy X i es f).1.vars k = some (v.write i x.asGrid)
  | [], f, _, _, _ => ⟨rfl, rfl, fun k e x v h => by simp [dget] at h⟩
  | (j, e) :: es, f, hk, hs, hf => by
    have hk' := keyed_cons.1 hk
    obtain ⟨hd, hx⟩ := hs j e (by simp [dget])
    obtain ⟨x, hx⟩ := Option.isSome_iff_exists.1 hx
    have hj := hf j (by simp [dkeys])
    obtain ⟨v, hv⟩ := mem_dkeys.1 hj
    have hstep : saveGrids legacy X i ((j, e) :: es) f =
        saveGrids legacy X i es { f with vars := dset f.vars j (v.write i x.asGrid) } := by
      simp only [saveGrids, hx, hv, if_pos hd]
    have hkeys : dkeys (dset f.vars j (v.write i x.asGrid)) = dkeys f.vars := dkeys_dset_mem hj _
    have hget : ∀ k e', dget es k = some e' → j ≠ k := by
      rintro k e' h rfl
      exact hk'.1 (mem_dkeys.2 ⟨_, h⟩)
    obtain ⟨a, b, c⟩ := saveGrids_ok (legacy := legacy) (X := X) (i := i)
      (f := { f with vars := dset f.vars j (v.write i x.asGrid) }) hk'.2
      (fun k e' h => hs k e' (by simp only [dget, if_neg (hget k e' h), h]))
      (fun k hkk => by rw [hkeys]; exact hf k (by simp only [dkeys, List.map_cons, List.mem_cons] at hkk ⊢; exact .inr hkk))
    rw [hstep]
    refine ⟨a, b.trans hkeys, fun k e' x' v' h1 h2 h3 => ?_⟩
    by_cases hjk : j = k
    · subst hjk
      simp only [dget, if_true, Option.some.injEq] at h1
      subst h1
      rw [hx, Option.some.injEq] at h2
      subst h2
      rw [hv, Option.some.injEq] at h3
      subst h3
      rw [(saveGrids_same legacy X i es _).2.2.2 j hk'.1]
      simp [dget_dset]
    · simp only [dget, if_neg hjk] at h1
      refine c k e' x' v' h1 h2 ?_
      simp only [dget_dset, if_neg (Ne.symm hjk), h3]

lemma saveMetas_ok {X : SubModel L W m K} {i : ℕ} : ∀ {es : Dict MetaEntry} {f : NcFile L W K},
    Keyed es → (∀ k u, dget es k = some ⟨none, u⟩ → k ∈ dkeys f.varying ∧
      ∃ x y, X.getAttr k = some x ∧ x.asNum = some y) →
    (saveMetas X i es f).2 = none ∧
    dkeys (saveMetas X i es f).1.varying = dkeys f.varying ∧
    ∀ k u x y v, dget es k = some ⟨none, u⟩ → X.getAttr k = some x → x.asNum = some y →
      dget f.varying k = some v → dget (saveMetas X i es f).1.varying k = some (v.write i y)
  | [], f, _, _ => ⟨rfl, rfl, fun k e x y v h => by simp [dget] at h⟩
  | (j, ⟨some a, u⟩) :: es, f, hk, hs => by
    have hk' := keyed_cons.1 hk
    have hget : ∀ k e', dget es k = some e' → j ≠ k := by
      rintro k e' h rfl
      exact hk'.1 (mem_dkeys.2 ⟨_, h⟩)
    obtain ⟨a', b, c⟩ := saveMetas_ok (X := X) (i := i) (f := f) hk'.2
      (fun k u h => hs k u (by simp only [dget, if_neg (hget k _ h), h]))
    simp only [saveMetas]
    refine ⟨a', b, fun k u' x y v h => ?_⟩
    simp only [dget] at h
    split_ifs at h with hjk
    · simp at h
    · exact c k u' x y v h
  | (j, ⟨none, u⟩) :: es, f, hk, hs => by
    have hk' := keyed_cons.1 hk
    have hget : ∀ k e', dget es k = some e' → j ≠ k := by
      rintro k e' h rfl
      exact hk'.1 (mem_dkeys.2 ⟨_, h⟩)
    obtain ⟨hj, x, y, hx, hy⟩ := hs j u (by simp [dget])
    obtain ⟨v, hv⟩ := mem_dkeys.1 hj
    have hstep : saveMetas X i ((j, ⟨none, u⟩) :: es) f =
        saveMetas X i es { f with varying := dset f.varying j (v.write i y) } := by
      simp only [saveMetas, hx, hv, hy]
    have hkeys : dkeys (dset f.varying j (v.write i y)) = dkeys f.varying := dkeys_dset_mem hj _
    obtain ⟨a', b, c⟩ := saveMetas_ok (X := X) (i := i)
      (f := { f with varying := dset f.varying j (v.write i y) }) hk'.2
      (fun k u h => by
        have := hs k u (by simp only [dget, if_neg (hget k _ h), h])
        exact ⟨by rw [hkeys]; exact this.1, this.2⟩)
    rw [hstep]
    refine ⟨a', b.trans hkeys, fun k u' x' y' v' h1 h2 h3 h4 => ?_⟩
    by_cases hjk : j = k
    · subst hjk
      rw [hx, Option.some.injEq] at h2
      subst h2
      rw [hy, Option.some.injEq] at h3
      subst h3
      rw [hv, Option.some.injEq] at h4
      subst h4
      rw [(saveMetas_same X i es _).2.2.2 j hk'.1]
      simp [dget_dset]
    · simp only [dget, if_neg hjk] at h1
      refine c k u' x' y' v' h1 h2 h3 ?_
      simp only [dget_dset, if_neg (Ne.symm hjk), h4]

lemma drawFigs_ok {X : SubModel L W m K} : ∀ {es : Dict String},
    (∀ p ∈ es, ∃ v, X.getAttr p.2 = some v ∧ v.isArray = true) → drawFigs X es = (dkeys es, none)
  | [], _ => rfl
  | (k, a) :: es, h => by
    obtain ⟨v, hv, hi⟩ := h _ List.mem_cons_self
    have ih := drawFigs_ok (es := es) fun p hp => h p (List.mem_cons_of_mem _ hp)
    simp only [drawFigs]
    simp only at hv
    rw [hv]
    simp only [hi, if_true, ih]
    simp [dkeys]

lemma drawFigs_names {X : SubModel L W m K} : ∀ {es : Dict String}, ∀ k ∈ (drawFigs X es).1, k ∈ dkeys es
  | [], k, h => by simp [drawFigs] at h
  | (j, a) :: es, k, h => by
    simp only [drawFigs] at h
    generalize X.getAttr a = o at h
    cases o with
    | none => simp at h
    | some v =>
      simp only at h
      split_ifs at h with hi
      · simp only [List.mem_cons] at h
        simp only [dkeys, List.map_cons, List.mem_cons]
        rcases h with h | h
        · exact .inl h
        · exact .inr (drawFigs_names k h)
      · simp at h

/-- The attributes that the entries of the lists name are there. -/
structure Saves (legacy : Bool) (l : OutLists) (X : SubModel L W m K) : Prop where
  figs : ∀ p ∈ l.figs, ∃ v, X.getAttr p.2 = some v ∧ v.isArray = true
  grids : ∀ k e, dget l.grids k = some e → e.dims = gridDims legacy ∧ (X.getAttr e.attr).isSome = true
  metas : ∀ k u, dget l.metas k = some ⟨none, u⟩ → ∃ x y, X.getAttr k = some x ∧ x.asNum = some y

/-- The variables that the entries of the lists name are there. -/
structure FitsFile (l : OutLists) (f : NcFile L W K) : Prop where
  grids : ∀ k ∈ dkeys l.grids, k ∈ dkeys f.vars
  metas : ∀ k u, dget l.metas k = some ⟨none, u⟩ → k ∈ dkeys f.varying

lemma saveOutput_ok {legacy : Bool} {F : SaveSet} {l : OutLists} {X : SubModel L W m K} {i : ℕ}
    {f : NcFile L W K} {g : List (String × ℕ)} (hm : F.metadata = true) (kg : Keyed l.grids)
    (km : Keyed l.metas) (hs : Saves legacy l X) (hf : FitsFile l f) :
    ∃ f', saveOutput legacy F l X i ⟨some f, g⟩ =
        (⟨some f', g ++ (dkeys l.figs).map fun k => (k, i)⟩, none) ∧ FitsFile l f' ∧ f'.fixed = f.fixed ∧
      (F.anyGrids = true → ∀ k e x v, dget l.grids k = some e → X.getAttr e.attr = some x →
        dget f.vars k = some v → dget f'.vars k = some (v.write i x.asGrid)) ∧
      (∀ k u x y v, dget l.metas k = some ⟨none, u⟩ → X.getAttr k = some x → x.asNum = some y →
        dget f.varying k = some v → dget f'.varying k = some (v.write i y)) := by
  obtain ⟨f1, hf1⟩ : ∃ f1 : NcFile L W K, f1 = { f with time := f.time.write i X.M.S.time } := ⟨_, rfl⟩
  have v1 : f1.vars = f.vars := by rw [hf1]
  have v2 : f1.varying = f.varying := by rw [hf1]
  have v3 : f1.fixed = f.fixed := by rw [hf1]
  have hg : ∃ f2 : NcFile L W K, (if F.anyGrids then saveGrids legacy X i l.grids f1 else (f1, none)) = (f2, none) ∧
      dkeys f2.vars = dkeys f.vars ∧ f2.varying = f.varying ∧ f2.fixed = f.fixed ∧
      (F.anyGrids = true → ∀ k e x v, dget l.grids k = some e → X.getAttr e.attr = some x →
        dget f.vars k = some v → dget f2.vars k = some (v.write i x.asGrid)) := by
    by_cases ha : F.anyGrids = true
    · obtain ⟨a, b, c⟩ := saveGrids_ok (legacy := legacy) (X := X) (i := i) (f := f1) kg hs.grids
        (by rw [v1]; exact hf.grids)
      obtain ⟨s1, s2, s3, s4⟩ := saveGrids_same legacy X i l.grids f1
      refine ⟨(saveGrids legacy X i l.grids f1).1, ?_, by rw [b, v1], by rw [s2, v2], by rw [s1, v3], ?_⟩
      · rw [if_pos ha]; exact Prod.ext rfl a
      · intro _ k e x v h1 h2 h3
        exact c k e x v h1 h2 (by rw [v1]; exact h3)
    · exact ⟨f1, by rw [if_neg ha], by rw [v1], v2, v3, fun h => absurd h ha⟩
  obtain ⟨f2, e2, w1, w2, w3, w4⟩ := hg
  obtain ⟨a, b, c⟩ := saveMetas_ok (X := X) (i := i) (f := f2) km
    (fun k u h => ⟨by rw [w2]; exact hf.metas k u h, hs.metas k u h⟩)
  obtain ⟨s1, s2, s3, s4⟩ := saveMetas_same X i l.metas f2
  refine ⟨(saveMetas X i l.metas f2).1, ?_, ⟨?_, ?_⟩, by rw [s1, w3], ?_, ?_⟩
  · unfold saveOutput
    simp only [drawFigs_ok hs.figs, hm, Bool.true_or, if_true, Option.map_some]
    rw [← hf1, e2]
    simp only [Prod.mk.injEq, true_and]
    exact a
  · intro k hk; rw [s2, w1]; exact hf.grids k hk
  · intro k u h; rw [b, w2]; exact hf.metas k u h
  · intro ha k e x v h1 h2 h3
    rw [s2]; exact w4 ha k e x v h1 h2 h3
  · intro k u x y v h1 h2 h3 h4
    exact c k u x y v h1 h2 h3 (by rw [w2]; exact h4)

/-- What a variable holds after records from an index on. -/
def Extended {A : Type*} (Xs : List (SubModel L W m K)) (val : SubModel L W m K → Option A) (i : ℕ)
    (v v' : NcVar A) : Prop :=
  v'.units = v.units ∧ (∀ n X x, Xs[n]? = some X → val X = some x → v'.data (i + n) = some x) ∧
  ∀ j, (j < i ∨ i + Xs.length ≤ j) → v'.data j = v.data j

lemma extended_cons {A : Type*} {X : SubModel L W m K} {Xs : List (SubModel L W m K)}
    {val : SubModel L W m K → Option A} {i : ℕ} {v v' : NcVar A} {x : A} (hx : val X = some x)
    (h : Extended Xs val (i + 1) (v.write i x) v') : Extended (X :: Xs) val i v v' := by
  obtain ⟨h1, h2, h3⟩ := h
  refine ⟨h1, ?_, ?_⟩
  · intro n Y y hY hy
    cases n with
    | zero =>
      simp only [List.getElem?_cons_zero, Option.some.injEq] at hY
      subst hY
      rw [hx, Option.some.injEq] at hy
      subst hy
      rw [h3 _ (.inl (by omega))]
      simp [NcVar.write]
    | succ n =>
      simp only [List.getElem?_cons_succ] at hY
      rw [show i + (n + 1) = i + 1 + n by omega]
      exact h2 n Y y hY hy
  · intro j hj
    simp only [List.length_cons] at hj
    rw [h3 j (by omega)]
    simp only [NcVar.write]
    rw [Function.update_of_ne (by omega)]

lemma saveOutputs_ok {legacy : Bool} {F : SaveSet} {l : OutLists} (hm : F.metadata = true)
    (kg : Keyed l.grids) (km : Keyed l.metas) : ∀ {Xs : List (SubModel L W m K)} {i : ℕ}
    {f : NcFile L W K} {g : List (String × ℕ)}, (∀ X ∈ Xs, Saves legacy l X) → FitsFile l f →
    ∃ f' g', saveOutputs legacy F l Xs i ⟨some f, g⟩ = (⟨some f', g'⟩, none) ∧ f'.fixed = f.fixed ∧
      (F.anyGrids = true → ∀ k e v, dget l.grids k = some e → dget f.vars k = some v →
        ∃ v', dget f'.vars k = some v' ∧
          Extended Xs (fun X => (X.getAttr e.attr).map MetaVal.asGrid) i v v') ∧
      (∀ k u v, dget l.metas k = some ⟨none, u⟩ → dget f.varying k = some v →
        ∃ v', dget f'.varying k = some v' ∧
          Extended Xs (fun X => (X.getAttr k).bind MetaVal.asNum) i v v') ∧
      ∀ k j, (k, j) ∈ g' ↔ (k, j) ∈ g ∨ k ∈ dkeys l.figs ∧ i ≤ j ∧ j < i + Xs.length
  | [], i, f, g, _, hf => by
    refine ⟨f, g, rfl, rfl, fun _ k e v _ h => ⟨v, h, rfl, by simp, fun _ _ => rfl⟩,
      fun k u v _ h => ⟨v, h, rfl, by simp, fun _ _ => rfl⟩, fun k j => ?_⟩
    simp only [List.length_nil, Nat.add_zero]
    constructor
    · exact .inl
    · rintro (h | ⟨_, h1, h2⟩)
      · exact h
      · omega
  | X :: Xs, i, f, g, hs, hf => by
    obtain ⟨f1, e1, hf1, hfix, hgr, hme⟩ := saveOutput_ok (F := F) (i := i) (g := g) hm kg km
      (hs X List.mem_cons_self) hf
    obtain ⟨f2, g2, e2, hfix2, hgr2, hme2, hfig2⟩ := saveOutputs_ok hm kg km (Xs := Xs) (i := i + 1) (f := f1)
      (g := g ++ (dkeys l.figs).map fun k => (k, i)) (fun Y hY => hs Y (List.mem_cons_of_mem _ hY)) hf1
    refine ⟨f2, g2, ?_, hfix2.trans hfix, ?_, ?_, ?_⟩
    · simp only [saveOutputs, e1]; exact e2
    · intro ha k e v h1 h2
      obtain ⟨x, hx⟩ := Option.isSome_iff_exists.1 ((hs X List.mem_cons_self).grids k e h1).2
      obtain ⟨v', hv', hext⟩ := hgr2 ha k e _ h1 (hgr ha k e x v h1 hx h2)
      exact ⟨v', hv', extended_cons (by simp [hx]) hext⟩
    · intro k u v h1 h2
      obtain ⟨x, y, hx, hy⟩ := (hs X List.mem_cons_self).metas k u h1
      obtain ⟨v', hv', hext⟩ := hme2 k u _ h1 (hme k u x y v h1 hx hy h2)
      exact ⟨v', hv', extended_cons (by simp [hx, hy]) hext⟩
    · intro k j
      rw [hfig2]
      simp only [List.mem_append, List.mem_map, Prod.mk.injEq, List.length_cons]
      constructor
      · rintro ((h | ⟨a, h1, rfl, rfl⟩) | ⟨h1, h2, h3⟩)
        · exact .inl h
        · exact .inr ⟨h1, by omega, by omega⟩
        · exact .inr ⟨h1, by omega, by omega⟩
      · rintro (h | ⟨h1, h2, h3⟩)
        · exact .inl (.inl h)
        · by_cases hij : i = j
          · exact .inl (.inr ⟨k, h1, rfl, hij⟩)
          · exact .inr ⟨h1, by omega, by omega⟩

/-! ## What a save leaves as it is, whether it fails or not -/

lemma saveOutput_kept (legacy : Bool) (F : SaveSet) (l : OutLists) (X : SubModel L W m K) (i : ℕ)
    (f : NcFile L W K) (g : List (String × ℕ)) :
    ∃ f' g', (saveOutput legacy F l X i ⟨some f, g⟩).1 = ⟨some f', g'⟩ ∧ f'.fixed = f.fixed ∧
      (∀ k, F.anyGrids = false ∨ k ∉ dkeys l.grids → dget f'.vars k = dget f.vars k) ∧
      (∀ k, k ∉ dkeys l.metas → dget f'.varying k = dget f.varying k) ∧
      ∀ k j, (k, j) ∈ g' → (k, j) ∈ g ∨ k ∈ dkeys l.figs := by
  unfold saveOutput
  obtain ⟨f1, hf1⟩ : ∃ f1 : NcFile L W K,
      (if F.metadata || F.anyGrids then (some f).map fun f => { f with time := f.time.write i X.M.S.time }
        else some f) = some f1 ∧ f1.vars = f.vars ∧ f1.varying = f.varying ∧ f1.fixed = f.fixed := by
    split_ifs
    · exact ⟨_, rfl, rfl, rfl, rfl⟩
    · exact ⟨_, rfl, rfl, rfl, rfl⟩
  obtain ⟨hf1, v1, v2, v3⟩ := hf1
  simp only [hf1]
  have hfig : ∀ k j, (k, j) ∈ g ++ (drawFigs X l.figs).1.map (fun k => (k, i)) →
      (k, j) ∈ g ∨ k ∈ dkeys l.figs := by
    intro k j h
    simp only [List.mem_append, List.mem_map, Prod.mk.injEq] at h
    rcases h with h | ⟨a, h, rfl, _⟩
    · exact .inl h
    · exact .inr (drawFigs_names _ h)
  generalize (drawFigs X l.figs).2 = e1
  cases e1 with
  | some e => exact ⟨f1, _, rfl, v3, fun k _ => by rw [v1], fun k _ => by rw [v2], hfig⟩
  | none =>
    simp only
    have hg : ∃ f2 : NcFile L W K, ∃ e2, (if F.anyGrids then saveGrids legacy X i l.grids f1 else (f1, none)) = (f2, e2) ∧
        (∀ k, F.anyGrids = false ∨ k ∉ dkeys l.grids → dget f2.vars k = dget f.vars k) ∧
        f2.varying = f.varying ∧ f2.fixed = f.fixed := by
      by_cases ha : F.anyGrids = true
      · obtain ⟨s1, s2, s3, s4⟩ := saveGrids_same legacy X i l.grids f1
        rw [if_pos ha]
        refine ⟨_, _, rfl, fun k hk => ?_, by rw [s2, v2], by rw [s1, v3]⟩
        rw [s4 k (hk.resolve_left (by simp [ha])), v1]
      · exact ⟨f1, none, by rw [if_neg ha], fun k _ => by rw [v1], v2, v3⟩
    obtain ⟨f2, e2, h2, w1, w2, w3⟩ := hg
    rw [h2]
    cases e2 with
    | some e => exact ⟨f2, _, rfl, w3, w1, fun k _ => by rw [w2], hfig⟩
    | none =>
      simp only
      by_cases hm : F.metadata = true
      · obtain ⟨s1, s2, s3, s4⟩ := saveMetas_same X i l.metas f2
        rw [if_pos hm]
        exact ⟨_, _, rfl, by rw [s1, w3], fun k hk => by rw [s2]; exact w1 k hk,
          fun k hk => by rw [s4 k hk, w2], hfig⟩
      · rw [if_neg hm]
        exact ⟨f2, _, rfl, w3, w1, fun k _ => by rw [w2], hfig⟩

lemma saveOutputs_kept (legacy : Bool) (F : SaveSet) (l : OutLists) : ∀ (Xs : List (SubModel L W m K))
    (i : ℕ) (f : NcFile L W K) (g : List (String × ℕ)),
    ∃ f' g', (saveOutputs legacy F l Xs i ⟨some f, g⟩).1 = ⟨some f', g'⟩ ∧ f'.fixed = f.fixed ∧
      (∀ k, F.anyGrids = false ∨ k ∉ dkeys l.grids → dget f'.vars k = dget f.vars k) ∧
      (∀ k, k ∉ dkeys l.metas → dget f'.varying k = dget f.varying k) ∧
      ∀ k j, (k, j) ∈ g' → (k, j) ∈ g ∨ k ∈ dkeys l.figs
  | [], i, f, g => ⟨f, g, rfl, rfl, fun _ _ => rfl, fun _ _ => rfl, fun _ _ h => .inl h⟩
  | X :: Xs, i, f, g => by
    obtain ⟨f1, g1, e1, a1, b1, c1, d1⟩ := saveOutput_kept legacy F l X i f g
    unfold saveOutputs
    generalize hs : saveOutput legacy F l X i ⟨some f, g⟩ = r at e1
    obtain ⟨d, e⟩ := r
    simp only at e1
    subst e1
    cases e with
    | some e => exact ⟨f1, g1, rfl, a1, b1, c1, d1⟩
    | none =>
      simp only
      obtain ⟨f2, g2, e2, a2, b2, c2, d2⟩ := saveOutputs_kept legacy F l Xs (i + 1) f1 g1
      refine ⟨f2, g2, e2, a2.trans a1, fun k hk => (b2 k hk).trans (b1 k hk),
        fun k hk => (c2 k hk).trans (c1 k hk), fun k j h => ?_⟩
      rcases d2 k j h with h | h
      · exact d1 k j h
      · exact .inr h

/-! ## The lists -/

lemma setFig_known {l : Dict String} (h : Keyed l) (hl : ∀ k a, dget l k = some a → ∃ f : FigFlag, (k, a) = f.entry)
    (f : FigFlag) (b : Bool) : Keyed (setFig l f b).1 ∧
      ∀ k a, dget (setFig l f b).1 k = some a → ∃ f : FigFlag, (k, a) = f.entry := by
  unfold setFig
  split_ifs
  · refine ⟨keyed_dset h _ _, fun k a hk => ?_⟩
    rw [dget_dset] at hk
    split_ifs at hk with hkf
    · rw [Option.some.injEq] at hk
      exact ⟨f, by rw [hkf, ← hk]⟩
    · exact hl k a hk
  · refine ⟨keyed_ddel h _, fun k a hk => ?_⟩
    rw [dget_ddel] at hk
    split_ifs at hk
    exact hl k a hk
  · exact ⟨h, hl⟩
  · exact ⟨h, hl⟩

lemma figsAfter_known (ops : List (FigFlag × Bool)) : Keyed (figsAfter ops) ∧
    ∀ k a, dget (figsAfter ops) k = some a → ∃ f : FigFlag, (k, a) = f.entry := by
  unfold figsAfter
  have : ∀ (ops : List (FigFlag × Bool)) (l : Dict String), Keyed l →
      (∀ k a, dget l k = some a → ∃ f : FigFlag, (k, a) = f.entry) →
      Keyed (ops.foldl (fun l op => (setFig l op.1 op.2).1) l) ∧
      ∀ k a, dget (ops.foldl (fun l op => (setFig l op.1 op.2).1) l) k = some a →
        ∃ f : FigFlag, (k, a) = f.entry := by
    intro ops
    induction ops with
    | nil => exact fun l h1 h2 => ⟨h1, h2⟩
    | cons op ops ih => exact fun l h1 h2 => ih _ (setFig_known h1 h2 _ _).1 (setFig_known h1 h2 _ _).2
  exact this ops [] (by simp [Keyed, dkeys]) (by simp [dget])

/-- The lists of a model: of the flags, with the entries of the hook and the standard metadata. -/
abbrev fullLists (legacy : Bool) (figs : Dict String) (F : SaveSet) (h : OutHook) (t : Bool) : OutLists :=
  ((flagLists legacy figs F).hooked h).withMeta F.metadata t

lemma standardMeta_keyed (t : Bool) : Keyed (standardMeta t) := by
  cases t <;> (unfold Keyed; decide)

lemma standardMeta_names (t : Bool) : ∀ k ∈ dkeys (standardMeta t), k ∈ standardNames := by
  cases t <;> decide

lemma getAttr_of_grid {X : SubModel L W m K} {a : String} {g : Grid L W K} (h : attrGrid X.M.S a = some g) :
    X.getAttr a = some (.nums g) := by
  simp only [SubModel.getAttr, h]

/-- The standard metadata that are fixed. -/
lemma standard_fixed {X : SubModel L W m K} {k a u : String}
    (h : dget (standardMeta X.M.I.toggleSub) k = some ⟨some a, u⟩) :
    ∃ v, X.getAttr a = some v ∧ dget (fixedMeta X.M) k = some (some u, v) := by
  have hm := mem_of_dget h
  cases ht : X.M.I.toggleSub with
  | false =>
    rw [ht] at hm
    simp only [standardMeta, Bool.false_eq_true, if_false, List.append_nil, List.cons_append, List.nil_append,
      List.mem_cons, Prod.mk.injEq, MetaEntry.mk.injEq, List.not_mem_nil, or_false, Option.some.injEq,
      reduceCtorEq, false_and, and_false] at hm
    rcases hm with ⟨rfl, rfl, rfl⟩ | ⟨rfl, rfl, rfl⟩ | ⟨rfl, rfl, rfl⟩ | ⟨rfl, rfl, rfl⟩ | ⟨rfl, rfl, rfl⟩ |
      ⟨rfl, rfl, rfl⟩ | ⟨rfl, rfl, rfl⟩ <;> exact ⟨_, rfl, rfl⟩
  | true =>
    rw [ht] at hm
    simp only [standardMeta, if_true, List.cons_append, List.nil_append,
      List.mem_cons, Prod.mk.injEq, MetaEntry.mk.injEq, List.not_mem_nil, or_false, Option.some.injEq,
      reduceCtorEq, false_and, and_false] at hm
    rcases hm with ⟨rfl, rfl, rfl⟩ | ⟨rfl, rfl, rfl⟩ | ⟨rfl, rfl, rfl⟩ | ⟨rfl, rfl, rfl⟩ | ⟨rfl, rfl, rfl⟩ |
      ⟨rfl, rfl, rfl⟩ | ⟨rfl, rfl, rfl⟩ | ⟨rfl, rfl, rfl⟩ | ⟨rfl, rfl, rfl⟩
    any_goals exact ⟨_, rfl, rfl⟩
    all_goals
      unfold SubModel.getAttr fixedMeta
      simp only [ht, if_true]
      exact ⟨_, rfl, rfl⟩

lemma fixedMeta_standard {X : SubModel L W m K} {k : String} {v : Option String × MetaVal L W K}
    (h : dget (fixedMeta X.M) k = some v) :
    ∃ a u, dget (standardMeta X.M.I.toggleSub) k = some ⟨some a, u⟩ := by
  have hm := mem_of_dget h
  unfold fixedMeta at hm
  cases ht : X.M.I.toggleSub with
  | false =>
    rw [ht] at hm
    simp only [Bool.false_eq_true, if_false, List.append_nil, List.mem_cons, Prod.mk.injEq,
      List.not_mem_nil, or_false] at hm
    rcases hm with ⟨rfl, -⟩ | ⟨rfl, -⟩ | ⟨rfl, -⟩ | ⟨rfl, -⟩ | ⟨rfl, -⟩ | ⟨rfl, -⟩ | ⟨rfl, -⟩ <;>
      exact ⟨_, _, rfl⟩
  | true =>
    rw [ht] at hm
    simp only [if_true, List.mem_append, List.mem_cons, Prod.mk.injEq, List.not_mem_nil, or_false] at hm
    rcases hm with (⟨rfl, -⟩ | ⟨rfl, -⟩ | ⟨rfl, -⟩ | ⟨rfl, -⟩ | ⟨rfl, -⟩ | ⟨rfl, -⟩ | ⟨rfl, -⟩) | ⟨rfl, -⟩ |
      ⟨rfl, -⟩ <;> exact ⟨_, _, rfl⟩

lemma standard_varying {X : SubModel L W m K} {t : Bool} {k u : String}
    (h : dget (standardMeta t) k = some ⟨none, u⟩) :
    ∃ x, X.getAttr k = some (.num x) := by
  have hm := mem_of_dget h
  cases t
  all_goals
    simp only [standardMeta, if_true, Bool.false_eq_true, if_false, List.append_nil, List.cons_append,
      List.nil_append, List.mem_cons, Prod.mk.injEq, MetaEntry.mk.injEq, List.not_mem_nil, or_false,
      reduceCtorEq, false_and, and_false, false_or] at hm
    rcases hm with ⟨rfl, -⟩ | ⟨rfl, -⟩ | ⟨rfl, -⟩ | ⟨rfl, -⟩ <;> exact ⟨_, rfl⟩

section

variable {legacy : Bool} {fops : List (FigFlag × Bool)} {ops : List (GridFlag × Bool)} {metadata : Bool}
  {h : OutHook}

lemma full_grids (hd : Documented legacy h) (t : Bool) (k : String) :
    dget (fullLists legacy (figsAfter fops) (saveSet ops metadata) h t).grids k =
      match dget h.grids k with
      | some e => some e
      | none => (dget (gridsAfter ops) k).map fun a => ⟨a, varUnits k, gridDims legacy⟩ := by
  have e1 : (fullLists legacy (figsAfter fops) (saveSet ops metadata) h t).grids =
      dupdate ((gridsAfter ops).map fun e => (e.1, ⟨e.2, varUnits e.1, gridDims legacy⟩)) h.grids := by
    unfold fullLists OutLists.withMeta
    split_ifs <;> rfl
  rw [e1, dget_dupdate hd.grids]
  unfold over
  cases dget h.grids k with
  | some e => rfl
  | none => simp only; exact dget_mapk (fun k a => (⟨a, varUnits k, gridDims legacy⟩ : GridEntry)) _ k

lemma full_grids_keyed (t : Bool) :
    Keyed (fullLists legacy (figsAfter fops) (saveSet ops metadata) h t).grids := by
  have e1 : (fullLists legacy (figsAfter fops) (saveSet ops metadata) h t).grids =
      dupdate ((gridsAfter ops).map fun e => (e.1, ⟨e.2, varUnits e.1, gridDims legacy⟩)) h.grids := by
    unfold fullLists OutLists.withMeta
    split_ifs <;> rfl
  rw [e1]
  refine keyed_dupdate ?_
  have := keyed_gridsAfter ops
  unfold Keyed dkeys at this ⊢
  simpa [List.map_map, Function.comp_def] using this

lemma full_metas (hd : Documented legacy h) (hm : (saveSet ops metadata).metadata = true) (t : Bool)
    (k : String) : dget (fullLists legacy (figsAfter fops) (saveSet ops metadata) h t).metas k =
      match dget (standardMeta t) k with
      | some e => some e
      | none => dget h.metas k := by
  have e1 : (fullLists legacy (figsAfter fops) (saveSet ops metadata) h t).metas =
      dupdate (dupdate [] h.metas) (standardMeta t) := by
    unfold fullLists OutLists.withMeta
    rw [if_pos hm]; rfl
  rw [e1, dget_dupdate (standardMeta_keyed t)]
  unfold over
  cases dget (standardMeta t) k with
  | some e => rfl
  | none =>
    simp only
    rw [dget_dupdate hd.metas]
    unfold over
    cases dget h.metas k <;> rfl

lemma full_metas_keyed (hm : (saveSet ops metadata).metadata = true) (t : Bool) :
    Keyed (fullLists legacy (figsAfter fops) (saveSet ops metadata) h t).metas := by
  have e1 : (fullLists legacy (figsAfter fops) (saveSet ops metadata) h t).metas =
      dupdate (dupdate [] h.metas) (standardMeta t) := by
    unfold fullLists OutLists.withMeta
    rw [if_pos hm]; rfl
  rw [e1]
  exact keyed_dupdate (keyed_dupdate (by simp [Keyed, dkeys]))

lemma full_figs (hd : Documented legacy h) (t : Bool) (k : String) :
    dget (fullLists legacy (figsAfter fops) (saveSet ops metadata) h t).figs k =
      over (dget (figsAfter fops)) (dget h.figs) k ∧
    Keyed (fullLists legacy (figsAfter fops) (saveSet ops metadata) h t).figs := by
  have e1 : (fullLists legacy (figsAfter fops) (saveSet ops metadata) h t).figs =
      dupdate (figsAfter fops) h.figs := by
    unfold fullLists OutLists.withMeta
    split_ifs <;> rfl
  rw [e1]
  exact ⟨dget_dupdate hd.figs k, keyed_dupdate (figsAfter_known fops).1⟩

lemma full_saves (hd : Documented legacy h) (hm : (saveSet ops metadata).metadata = true) (t : Bool)
    {X : SubModel L W m K} (hp : Present h X) :
    Saves legacy (fullLists legacy (figsAfter fops) (saveSet ops metadata) h t) X := by
  refine ⟨?_, ?_, ?_⟩
  · rintro ⟨k, a⟩ hk
    have hf := full_figs (fops := fops) (ops := ops) (metadata := metadata) hd t k
    have := dget_of_mem hf.2 hk
    rw [hf.1] at this
    unfold over at this
    cases hh : dget h.figs k with
    | some b =>
      rw [hh] at this
      simp only [Option.some.injEq] at this
      subst this
      obtain ⟨g, hg⟩ := hp.figs k b hh
      exact ⟨_, hg, rfl⟩
    | none =>
      rw [hh] at this
      simp only at this
      obtain ⟨f, hf⟩ := (figsAfter_known fops).2 k a this
      obtain ⟨c1, c2, c3⟩ := C54_content_figs X.M.S f
      rw [← hf] at c3
      obtain ⟨g, hg⟩ := Option.isSome_iff_exists.1 c3
      exact ⟨_, getAttr_of_grid hg, rfl⟩
  · intro k e hk
    rw [full_grids hd] at hk
    cases hh : dget h.grids k with
    | some b =>
      rw [hh] at hk
      simp only [Option.some.injEq] at hk
      subst hk
      obtain ⟨g, hg⟩ := hp.grids k b hh
      refine ⟨?_, by rw [hg]; rfl⟩
      rw [hd.dims k b hh]; rfl
    | none =>
      rw [hh] at hk
      simp only [Option.map_eq_some_iff] at hk
      obtain ⟨a, ha, rfl⟩ := hk
      refine ⟨rfl, ?_⟩
      obtain ⟨g, hg⟩ := Option.isSome_iff_exists.1 (entries_known ops X.M.S _ (mem_of_dget ha))
      rw [getAttr_of_grid hg]; rfl
  · intro k u hk
    rw [full_metas hd hm] at hk
    cases hs : dget (standardMeta t) k with
    | some b =>
      rw [hs] at hk
      simp only [Option.some.injEq] at hk
      subst hk
      obtain ⟨x, hx⟩ := standard_varying (X := X) hs
      exact ⟨_, x, hx, rfl⟩
    | none =>
      rw [hs] at hk
      obtain ⟨x, hx⟩ := hp.varying k u hk
      exact ⟨_, x, hx, rfl⟩

/-- The file of a new model, with everything the entries name. -/
lemma full_open (hd : Documented legacy h) (hm : (saveSet ops metadata).metadata = true)
    {X : SubModel L W m K} (hp : Present h X) (clobber : Bool) {found : Option (NcFile L W K)}
    (hfound : found = none ∨ clobber = true) :
    ∃ f, newOutput legacy clobber (figsAfter fops) (saveSet ops metadata) h X found =
        .ok (fullLists legacy (figsAfter fops) (saveSet ops metadata) h X.M.I.toggleSub, some f) ∧
      (∀ k, dget f.vars k =
        (dget (fullLists legacy (figsAfter fops) (saveSet ops metadata) h X.M.I.toggleSub).grids k).map
          fun e => ⟨some e.units, fun _ => none⟩) ∧
      (∀ k, dget f.fixed k =
        (dget (fullLists legacy (figsAfter fops) (saveSet ops metadata) h X.M.I.toggleSub).metas k).bind
          fun e => e.attr.bind fun a => (X.getAttr a).map fun x => (some e.units, x)) ∧
      ∀ k, dget f.varying k =
        (dget (fullLists legacy (figsAfter fops) (saveSet ops metadata) h X.M.I.toggleSub).metas k).bind
          fun e => if e.attr = none then some ⟨some e.units, fun _ => none⟩ else none := by
  set l := fullLists legacy (figsAfter fops) (saveSet ops metadata) h X.M.I.toggleSub with hl
  have kg : Keyed l.grids := full_grids_keyed _
  have km : Keyed l.metas := full_metas_keyed hm _
  have hs : Saves legacy l X := full_saves hd hm _ hp
  have names : ∀ k ∈ dkeys l.grids, k ∉ ["time", "x", "y"] := by
    intro k hk
    obtain ⟨e, he⟩ := mem_dkeys.1 hk
    rw [hl, full_grids hd] at he
    cases hh : dget h.grids k with
    | some b =>
      have := hd.names k (mem_dkeys.2 ⟨b, hh⟩)
      simp [this.1, this.2.1, this.2.2]
    | none =>
      rw [hh] at he
      simp only [Option.map_eq_some_iff] at he
      obtain ⟨a, ha, -⟩ := he
      obtain ⟨f, -, hf⟩ := gridsAfter_entry ha
      have key : ∀ f : GridFlag, ∀ p ∈ f.entries, p.1 ∉ ["time", "x", "y"] := by
        intro f; cases f <;> decide
      exact key f _ hf
  have g1 := makeGrids_ok (L := L) (W := W) (K := K) (d := []) kg (fun k hk => ⟨by simp [dkeys], names k hk⟩)
    (fun k e he => (hs.grids k e he).1)
  have g2 : ∀ p ∈ l.metas, ∀ a, p.2.attr = some a → (X.getAttr a).isSome = true := by
    rintro ⟨k, e⟩ hk a ha
    have := dget_of_mem km hk
    rw [hl, full_metas hd hm] at this
    obtain ⟨ea, eu⟩ := e
    simp only at ha
    subst ha
    cases hh : dget (standardMeta X.M.I.toggleSub) k with
    | some b =>
      rw [hh] at this
      simp only [Option.some.injEq] at this
      subst this
      obtain ⟨v, hv, -⟩ := standard_fixed hh
      rw [hv]; rfl
    | none =>
      rw [hh] at this
      obtain ⟨v, hv⟩ := hp.fixed k a eu this
      rw [hv]; rfl
  obtain ⟨fx, vy, g3⟩ := makeMetas_ok g2
  have e1 : ((flagLists legacy (figsAfter fops) (saveSet ops metadata)).hooked h).withMeta true
      X.M.I.toggleSub = l := by rw [hl, fullLists, hm]
  obtain ⟨f, hf, w1, w2, w3⟩ : ∃ f, newOutput legacy clobber (figsAfter fops) (saveSet ops metadata) h X found =
      .ok (l, some f) ∧ f.vars = l.grids.map (fun p => (p.1, ⟨some p.2.units, fun _ => none⟩)) ∧
      f.fixed = fx ∧ f.varying = vy := by
    unfold newOutput openFile
    simp only [hm, Bool.true_or, if_true]
    rw [if_neg (by rcases hfound with rfl | rfl <;> simp), e1, g1]
    simp only [g3]
    exact ⟨_, rfl, rfl, rfl, rfl⟩
  refine ⟨f, hf, fun k => ?_, fun k => ?_, fun k => ?_⟩
  · rw [w1]
    exact dget_map (fun e : GridEntry => (⟨some e.units, fun _ => none⟩ : NcVar (Grid L W K))) l.grids k
  · rw [w2]; exact (makeMetas_get g3 km k).1
  · rw [w3]; exact (makeMetas_get g3 km k).2

lemma full_fits
    {l : OutLists} {f : NcFile L W K}
    (h1 : ∀ k, dget f.vars k = (dget l.grids k).map fun e => ⟨some e.units, fun _ => none⟩)
    (h2 : ∀ k, dget f.varying k = (dget l.metas k).bind fun e =>
      if e.attr = none then some ⟨some e.units, fun _ => none⟩ else none) : FitsFile l f := by
  refine ⟨fun k hk => ?_, fun k u hk => ?_⟩
  · obtain ⟨e, he⟩ := mem_dkeys.1 hk
    exact mem_dkeys.2 ⟨_, by rw [h1, he]; rfl⟩
  · exact mem_dkeys.2 ⟨⟨some u, fun _ => none⟩, by rw [h2, hk]; simp⟩

lemma recorded_of_extended {A : Type*} {Xs : List (SubModel L W m K)} {val : SubModel L W m K → Option A}
    {holds : SubModel L W m K → A → Prop} {v v' : NcVar A} (hv : ∀ i, v.data i = none)
    (hh : ∀ X x, holds X x → val X = some x) (h : Extended Xs val 0 v v') : Recorded Xs holds v' := by
  refine ⟨fun i X x hX hx => ?_, fun i hi => ?_⟩
  · have := h.2.1 i X x hX (hh X x hx)
    rwa [Nat.zero_add] at this
  · rw [h.2.2 i (.inr (by omega)), hv]

end

/-- C109: where a built-in grid is saved, everything that a hook adds as documented is saved: a record of
each added grid and of each added quantity that varies at every save, each added fixed quantity as it was
when the model was made, and each added figure at every save. The built-in grids are saved as well, where
the hook does not take their names. The full statement is without the assumption that some built-in grid is
saved; it is false (`C109_nothing`, `C109_metadata_only`), and it does not extend to resumed runs
(`C109_resumed`). -/
theorem C109_saved_partial (legacy clobber : Bool) (fops : List (FigFlag × Bool))
    (ops : List (GridFlag × Bool)) (metadata : Bool) (hon : ∃ g, lastSet ops g = some true) (h : OutHook)
    (hd : Documented legacy h) (X0 : SubModel L W m K) (hp0 : Present h X0) (found : Option (NcFile L W K))
    (hfound : found = none ∨ clobber = true) :
    ∃ l f0, newOutput legacy clobber (figsAfter fops) (saveSet ops metadata) h X0 found = .ok (l, some f0) ∧
      ∀ Xs : List (SubModel L W m K), (∀ X ∈ Xs, Present h X) →
        ∃ f figs, saveOutputs legacy (saveSet ops metadata) l Xs 0 ⟨some f0, []⟩ = (⟨some f, figs⟩, none) ∧
          (∀ k e, dget h.grids k = some e → ∃ v, dget f.vars k = some v ∧ v.units = some e.units ∧
            Recorded Xs (fun X => HoldsArray X e.attr) v) ∧
          (∀ k a u, k ∉ standardNames → dget h.metas k = some ⟨some a, u⟩ → ∃ x, X0.getAttr a = some x ∧
            dget f.fixed k = some (some u, x)) ∧
          (∀ k u, k ∉ standardNames → dget h.metas k = some ⟨none, u⟩ → ∃ v, dget f.varying k = some v ∧
            v.units = some u ∧ Recorded Xs (fun X => HoldsNum X k) v) ∧
          (∀ k ∈ dkeys h.figs, ∀ i, (k, i) ∈ figs ↔ i < Xs.length) ∧
          ∀ g, lastSet ops g = some true → ∀ k ∈ askedFor g, k ∉ dkeys h.grids → ∃ v,
            dget f.vars k = some v ∧
            Recorded Xs (fun X x => documentedGrid X.M.S k = some x) v := by
  obtain ⟨g0, hg0⟩ := hon
  have hany : (saveSet ops metadata).anyGrids = true := (anyGrids_iff ops).2 ⟨g0, (flagValue_iff ops g0).2 hg0⟩
  have hm : (saveSet ops metadata).metadata = true := by
    have : anyGrids ops = true := hany
    simp [saveSet, this]
  obtain ⟨f0, e0, hv0, hx0, hy0⟩ := full_open (fops := fops) hd hm hp0 clobber hfound
  set l := fullLists legacy (figsAfter fops) (saveSet ops metadata) h X0.M.I.toggleSub with hl
  refine ⟨l, f0, e0, fun Xs hXs => ?_⟩
  obtain ⟨f, figs, e1, hfix, hgr, hme, hfig⟩ := saveOutputs_ok (legacy := legacy) (F := saveSet ops metadata)
    (l := l) hm (full_grids_keyed _) (full_metas_keyed hm _) (i := 0) (g := [])
    (fun X hX => full_saves hd hm _ (hXs X hX)) (full_fits hv0 hy0)
  have hstd : ∀ k, k ∉ standardNames → dget (standardMeta X0.M.I.toggleSub) k = none :=
    fun k hk => dget_none.2 fun hc => hk (standardMeta_names _ k hc)
  have hmeta : ∀ k e, k ∉ standardNames → dget h.metas k = some e → dget l.metas k = some e := by
    intro k e hk he
    rw [hl, full_metas hd hm, hstd k hk]
    exact he
  refine ⟨f, figs, e1, ?_, ?_, ?_, ?_, ?_⟩
  · intro k e he
    have hk : dget l.grids k = some e := by rw [hl, full_grids hd, he]
    obtain ⟨v', h1, h2⟩ := hgr hany k e _ hk (by rw [hv0, hk]; rfl)
    refine ⟨v', h1, h2.1, recorded_of_extended (fun _ => rfl) (fun X x hx => ?_) h2⟩
    rw [hx]; rfl
  · intro k a u hk he
    obtain ⟨x, hx⟩ := hp0.fixed k a u he
    refine ⟨x, hx, ?_⟩
    rw [hfix, hx0, hmeta k _ hk he]
    simp [hx]
  · intro k u hk he
    have hk' := hmeta k _ hk he
    obtain ⟨v', h1, h2⟩ := hme k u ⟨some u, fun _ => none⟩ hk' (by rw [hy0, hk']; simp)
    refine ⟨v', h1, h2.1, recorded_of_extended (fun _ => rfl) (fun X x hx => ?_) h2⟩
    rw [hx]; rfl
  · intro k hk i
    rw [hfig]
    have hkl : k ∈ dkeys l.figs := by
      obtain ⟨a, ha⟩ := mem_dkeys.1 hk
      refine mem_dkeys.2 ⟨a, ?_⟩
      rw [hl, (full_figs hd _ k).1]
      unfold over
      rw [ha]
    simp [hkl]
  · intro g hg k hk hnk
    obtain ⟨c1, c2⟩ := C54_content X0.M.S g
    rw [← c1, List.mem_map] at hk
    obtain ⟨⟨k', a⟩, hmem, rfl⟩ := hk
    simp only at hnk
    have hin := (C54_grids ops g _ hmem).1 hg
    have hk : dget l.grids k' = some ⟨a, varUnits k', gridDims legacy⟩ := by
      rw [hl, full_grids hd, dget_none.2 hnk, hin]; rfl
    obtain ⟨v', h1, h2⟩ := hgr hany k' _ _ hk (by rw [hv0, hk]; rfl)
    refine ⟨v', h1, recorded_of_extended (fun _ => rfl) (fun X x hx => ?_) h2⟩
    have := ((C54_content X.M.S g).2 _ hmem).1
    simp only at this hx
    rw [hx] at this
    simp only [getAttr_of_grid this]
    rfl

/-- C109 fails where no built-in grid and no metadata are asked for, as in the example of
docs/source/examples/custom_saving.rst: whatever a hook adds, no output file is made, and none is written
to. -/
theorem C109_nothing (legacy clobber : Bool) (fops : List (FigFlag × Bool))
    (ops : List (GridFlag × Bool)) (hoff : ∀ g, lastSet ops g ≠ some true) (h : OutHook)
    (X0 : SubModel L W m K) (found : Option (NcFile L W K)) :
    ∃ l, newOutput legacy clobber (figsAfter fops) (saveSet ops false) h X0 found = .ok (l, found) ∧
      ∀ (Xs : List (SubModel L W m K)) (i : ℕ) (figs : List (String × ℕ)),
        (saveOutputs legacy (saveSet ops false) l Xs i ⟨found, figs⟩).1.file = found := by
  have hany : anyGrids ops = false := by
    by_contra hc
    rw [Bool.not_eq_false] at hc
    obtain ⟨g, hg⟩ := (anyGrids_iff ops).1 hc
    exact hoff g ((flagValue_iff ops g).1 hg)
  have e1 : (saveSet ops false).metadata = false := by simp [saveSet, hany]
  have e2 : (saveSet ops false).anyGrids = false := hany
  refine ⟨_, by
    unfold newOutput openFile
    simp only [e1, e2, Bool.or_self, Bool.false_eq_true, if_false]
    rfl, fun Xs => ?_⟩
  generalize OutLists.withMeta _ _ _ = l
  induction Xs with
  | nil => exact fun i figs => rfl
  | cons X Xs ih =>
    intro i figs
    have : ∃ g' e, saveOutput legacy (saveSet ops false) l X i ⟨found, figs⟩ = (⟨found, g'⟩, e) := by
      unfold saveOutput
      simp only [e1, e2, Bool.or_self, Bool.false_eq_true, if_false]
      generalize (drawFigs X l.figs).2 = e
      cases e with
      | some e => exact ⟨_, _, rfl⟩
      | none => cases found <;> exact ⟨_, _, rfl⟩
    obtain ⟨g', e, hs⟩ := this
    unfold saveOutputs
    rw [hs]
    cases e with
    | some e => rfl
    | none => exact ih _ _

/-- C109 fails where only the metadata are asked for: the variables of the added grids are made, and stay
empty. -/
theorem C109_metadata_only (legacy clobber : Bool) (fops : List (FigFlag × Bool))
    (ops : List (GridFlag × Bool)) (hoff : ∀ g, lastSet ops g ≠ some true) (h : OutHook)
    (hd : Documented legacy h) (X0 : SubModel L W m K) (hp0 : Present h X0) :
    ∃ l f0, newOutput legacy clobber (figsAfter fops) (saveSet ops true) h X0 none = .ok (l, some f0) ∧
      ∀ (Xs : List (SubModel L W m K)) (i : ℕ) (figs : List (String × ℕ)), ∃ f figs',
        (saveOutputs legacy (saveSet ops true) l Xs i ⟨some f0, figs⟩).1 = ⟨some f, figs'⟩ ∧
        ∀ k e, dget h.grids k = some e → dget f.vars k = some ⟨some e.units, fun _ => none⟩ := by
  have hany : (saveSet ops true).anyGrids = false := by
    by_contra hc
    rw [Bool.not_eq_false] at hc
    obtain ⟨g, hg⟩ := (anyGrids_iff ops).1 hc
    exact hoff g ((flagValue_iff ops g).1 hg)
  have hm : (saveSet ops true).metadata = true := by simp [saveSet]
  obtain ⟨f0, e0, hv0, -, -⟩ := full_open (fops := fops) hd hm hp0 clobber (found := none) (.inl rfl)
  refine ⟨_, f0, e0, fun Xs i figs => ?_⟩
  obtain ⟨f, figs', e1, -, hv, -, -⟩ := saveOutputs_kept legacy (saveSet ops true)
    (fullLists legacy (figsAfter fops) (saveSet ops true) h X0.M.I.toggleSub) Xs i f0 figs
  refine ⟨f, figs', e1, fun k e he => ?_⟩
  rw [hv k (.inl hany), hv0, full_grids hd, he]
  rfl

/-- C109 fails for a run that is resumed and finds its output file: the hook is not called, the variables it
had added keep their records and get no more, and its figures are no longer made. -/
theorem C109_resumed (legacy clobber : Bool) (fops : List (FigFlag × Bool)) (ops : List (GridFlag × Bool))
    (metadata : Bool) (hfile : metadata = true ∨ ∃ g, lastSet ops g = some true) (h : OutHook)
    (X0 : SubModel L W m K) (saveIter : ℕ) (old : NcFile L W K) :
    ∃ l f0, resumeOutput legacy clobber (figsAfter fops) (saveSet ops metadata) h X0 saveIter (some old) =
        .ok (l, some f0, saveIter) ∧
      ∀ (Xs : List (SubModel L W m K)), ∃ f figs,
        (saveOutputs legacy (saveSet ops metadata) l Xs saveIter ⟨some f0, []⟩).1 = ⟨some f, figs⟩ ∧
        (∀ k, k ∉ dkeys (gridsAfter ops) →
          (dget f.vars k).map (·.data) = (dget old.vars k).map (·.data)) ∧
        (∀ k, k ∉ standardNames → (dget f.varying k).map (·.data) = (dget old.varying k).map (·.data)) ∧
        ∀ k i, (k, i) ∈ figs → k ∈ dkeys (figsAfter fops) := by
  have hm : (saveSet ops metadata).metadata = true := by
    simp only [saveSet, Bool.or_eq_true]
    rcases hfile with h | ⟨g, h⟩
    · exact .inl h
    · exact .inr ((anyGrids_iff ops).2 ⟨g, (flagValue_iff ops g).2 h⟩)
  refine ⟨(flagLists legacy (figsAfter fops) (saveSet ops metadata)).withMeta
    (saveSet ops metadata).metadata X0.M.I.toggleSub, copyFile old, ?_, fun Xs => ?_⟩
  · unfold resumeOutput
    simp only [hm, Bool.true_or, if_true]
  obtain ⟨f, figs, e1, -, hv, hy, hf⟩ := saveOutputs_kept legacy (saveSet ops metadata)
    ((flagLists legacy (figsAfter fops) (saveSet ops metadata)).withMeta
    (saveSet ops metadata).metadata X0.M.I.toggleSub) Xs saveIter (copyFile old) []
  refine ⟨f, figs, e1, fun k hk => ?_, fun k hk => ?_, fun k i hi => ?_⟩
  · rw [hv k (.inr ?_)]
    · have : dget (copyFile old).vars k = (dget old.vars k).map fun v => ⟨none, v.data⟩ :=
        dget_map (fun v : NcVar (Grid L W K) => (⟨none, v.data⟩ : NcVar (Grid L W K))) old.vars k
      rw [this, Option.map_map]
      rfl
    · simp only [OutLists.withMeta, hm, if_true, flagLists]
      rw [show (saveSet ops metadata).vars = gridsAfter ops from rfl]
      unfold dkeys at hk ⊢
      simpa [List.map_map, Function.comp_def] using hk
  · rw [hy k ?_]
    · have : dget (copyFile old).varying k = (dget old.varying k).map fun v => ⟨none, v.data⟩ :=
        dget_map (fun v : NcVar K => (⟨none, v.data⟩ : NcVar K)) old.varying k
      rw [this, Option.map_map]
      rfl
    · simp only [OutLists.withMeta, hm, if_true, flagLists]
      rw [dkeys_dupdate]
      simp only [dkeys, List.map_nil, List.not_mem_nil, false_or]
      exact fun hc => hk (standardMeta_names _ k hc)
  · rcases hf k i hi with h | h
    · simp at h
    · simpa only [OutLists.withMeta, hm, if_true, flagLists] using h

/-- C109: a run that is resumed and does not find the output file it expects starts as a new model does, at
index zero, with the entries of the hook. -/
theorem C109_resumed_without_file (legacy clobber : Bool) (fops : List (FigFlag × Bool))
    (ops : List (GridFlag × Bool)) (metadata : Bool)
    (hfile : metadata = true ∨ ∃ g, lastSet ops g = some true) (h : OutHook) (hd : Documented legacy h)
    (X0 : SubModel L W m K) (hp0 : Present h X0) (saveIter : ℕ) :
    ∃ l f0, newOutput legacy clobber (figsAfter fops) (saveSet ops metadata) h X0 none = .ok (l, some f0) ∧
      resumeOutput legacy clobber (figsAfter fops) (saveSet ops metadata) h X0 saveIter none =
        .ok (l, some f0, 0) := by
  have hm : (saveSet ops metadata).metadata = true := by
    simp only [saveSet, Bool.or_eq_true]
    rcases hfile with h | ⟨g, h⟩
    · exact .inl h
    · exact .inr ((anyGrids_iff ops).2 ⟨g, (flagValue_iff ops g).2 h⟩)
  obtain ⟨f0, e0, -⟩ := full_open (fops := fops) hd hm hp0 clobber (found := none) (.inl rfl)
  refine ⟨_, f0, e0, ?_⟩
  unfold newOutput at e0
  unfold resumeOutput
  simp only [hm, Bool.true_or, if_true, e0]

/-- C109 fails for resumed runs that save figures only: the hook is not called, and its figures are no
longer made. -/
theorem C109_resumed_figures (legacy clobber : Bool) (fops : List (FigFlag × Bool))
    (ops : List (GridFlag × Bool)) (hoff : ∀ g, lastSet ops g ≠ some true) (h : OutHook)
    (X0 : SubModel L W m K) (saveIter : ℕ) (found : Option (NcFile L W K)) :
    ∃ l, resumeOutput legacy clobber (figsAfter fops) (saveSet ops false) h X0 saveIter found =
        .ok (l, found, saveIter) ∧ dkeys l.figs = dkeys (figsAfter fops) := by
  have hany : anyGrids ops = false := by
    by_contra hc
    rw [Bool.not_eq_false] at hc
    obtain ⟨g, hg⟩ := (anyGrids_iff ops).1 hc
    exact hoff g ((flagValue_iff ops g).1 hg)
  refine ⟨flagLists legacy (figsAfter fops) (saveSet ops false), ?_, rfl⟩
  unfold resumeOutput
  simp [saveSet, hany]

/-- C109: the standard metadata cannot be replaced by a hook: their values are those of the model, whatever
the hook sets under their names. (Without subsidence, "start_subsidence" and "sigma" are not among them.) -/
theorem C109_standard (legacy clobber : Bool) (fops : List (FigFlag × Bool)) (ops : List (GridFlag × Bool))
    (metadata : Bool) (hfile : metadata = true ∨ ∃ g, lastSet ops g = some true) (h : OutHook)
    (hd : Documented legacy h) (X0 : SubModel L W m K) (hp0 : Present h X0) :
    ∃ l f0, newOutput legacy clobber (figsAfter fops) (saveSet ops metadata) h X0 none = .ok (l, some f0) ∧
      (X0.M.I.toggleSub = true ∨ "start_subsidence" ∉ dkeys h.metas ∧ "sigma" ∉ dkeys h.metas →
        FixedOk X0.M f0.fixed) := by
  have hm : (saveSet ops metadata).metadata = true := by
    simp only [saveSet, Bool.or_eq_true]
    rcases hfile with h | ⟨g, h⟩
    · exact .inl h
    · exact .inr ((anyGrids_iff ops).2 ⟨g, (flagValue_iff ops g).2 h⟩)
  obtain ⟨f0, e0, -, hx0, -⟩ := full_open (fops := fops) hd hm hp0 clobber (found := none) (.inl rfl)
  refine ⟨_, f0, e0, fun hsub => ?_⟩
  have key : ∀ k v, dget (fixedMeta X0.M) k = some v → dget f0.fixed k = some v := by
    intro k v hv
    obtain ⟨a, u, hs⟩ := fixedMeta_standard hv
    obtain ⟨x, hx, hv'⟩ := standard_fixed hs
    rw [hx0, full_metas hd hm, hs]
    simp only [Option.bind_some, hx, Option.map_some]
    rw [← hv', hv]
  have hok := fixedMeta_ok X0.M
  constructor
  · obtain ⟨u, hu⟩ := hok.L0; exact ⟨u, key _ _ hu⟩
  · obtain ⟨u, hu⟩ := hok.N0; exact ⟨u, key _ _ hu⟩
  · obtain ⟨u, hu⟩ := hok.CTR; exact ⟨u, key _ _ hu⟩
  · obtain ⟨u, hu⟩ := hok.dx; exact ⟨u, key _ _ hu⟩
  · obtain ⟨u, hu⟩ := hok.h0; exact ⟨u, key _ _ hu⟩
  · obtain ⟨u, x, hu, hx⟩ := hok.hb; exact ⟨u, x, key _ _ hu, hx⟩
  · obtain ⟨u, hu⟩ := hok.cells; exact ⟨u, key _ _ hu⟩
  · intro ht; obtain ⟨u, hu⟩ := hok.sigma ht; exact ⟨u, key _ _ hu⟩
  · intro ht; obtain ⟨u, n, hu, hn⟩ := hok.start ht; exact ⟨u, n, key _ _ hu, hn⟩
  · intro ht
    rcases hsub with hsub | ⟨h1, h2⟩
    · rw [ht] at hsub; simp at hsub
    · constructor <;>
      · rw [hx0, full_metas hd hm, ht]
        first
          | (rw [show dget (standardMeta false) "sigma" = none from rfl, dget_none.2 h2]; rfl)
          | (rw [show dget (standardMeta false) "start_subsidence" = none from rfl, dget_none.2 h1]; rfl)

lemma makeGrids_dims {legacy : Bool} {k : String} {e : GridEntry} (hbad : ∃ a ∈ e.dims, a ∉ gridDims legacy) :
    ∀ {es : Dict GridEntry} {d : Dict (NcVar (Grid L W K))}, (k, e) ∈ es →
      ∃ er, makeGrids legacy es d = .error er
  | [], d, h => by simp at h
  | (j, e') :: es, d, h => by
    unfold makeGrids
    split_ifs with h1 h2
    · exact ⟨_, rfl⟩
    · exact ⟨_, rfl⟩
    · rcases List.mem_cons.1 h with h | h
      · cases h
        exact absurd hbad h2
      · exact makeGrids_dims hbad h

/-- C109: a grid with a dimension that the file has not, such as "x" in a file with `legacy_netcdf` or
"total_time" in one without, makes the creation of the model fail where a file is to be made. -/
theorem C109_bad_dimension (legacy clobber : Bool) (fops : List (FigFlag × Bool))
    (ops : List (GridFlag × Bool)) (metadata : Bool)
    (hfile : metadata = true ∨ ∃ g, lastSet ops g = some true) (h : OutHook)
    (hk : (dkeys h.grids).Nodup) (k : String) (e : GridEntry) (he : dget h.grids k = some e)
    (hbad : ∃ a ∈ e.dims, a ∉ if legacy then ["total_time", "length", "width"] else ["time", "x", "y"])
    (X0 : SubModel L W m K) (found : Option (NcFile L W K)) :
    ∃ er, newOutput legacy clobber (figsAfter fops) (saveSet ops metadata) h X0 found = .error er := by
  have hm : (saveSet ops metadata).metadata = true := by
    simp only [saveSet, Bool.or_eq_true]
    rcases hfile with h | ⟨g, h⟩
    · exact .inl h
    · exact .inr ((anyGrids_iff ops).2 ⟨g, (flagValue_iff ops g).2 h⟩)
  unfold newOutput openFile
  simp only [hm, Bool.true_or, if_true]
  split_ifs with h1
  · exact ⟨_, rfl⟩
  · have hmem : (k, e) ∈ (((flagLists legacy (figsAfter fops) (saveSet ops metadata)).hooked h).withMeta true
        X0.M.I.toggleSub).grids := by
      simp only [OutLists.withMeta, if_true, OutLists.hooked]
      refine mem_of_dget ?_
      rw [dget_dupdate hk]
      unfold over
      rw [he]
    obtain ⟨er, her⟩ := makeGrids_dims (L := L) (W := W) (K := K) (d := []) hbad hmem
    rw [her]
    exact ⟨er, rfl⟩

/-- C109: a figure of an attribute that is not an array makes the save fail. -/
theorem C109_bad_figure (legacy : Bool) (F : SaveSet) (l : OutLists) (X : SubModel L W m K) (i : ℕ)
    (d : OutDir L W K) (k a : String) (x : K) (hk : (k, a) ∈ l.figs) (hx : HoldsNum X a x) :
    (saveOutput legacy F l X i d).2 ≠ none := by
  have key : ∀ es : Dict String, (k, a) ∈ es → ∃ e, (drawFigs X es).2 = some e := by
    intro es
    induction es with
    | nil => simp
    | cons p es ih =>
      obtain ⟨j, b⟩ := p
      intro h
      unfold drawFigs
      rcases List.mem_cons.1 h with h | h
      · cases h
        rw [show X.getAttr a = some (.num x) from hx]
        exact ⟨_, rfl⟩
      · generalize X.getAttr b = o
        cases o with
        | none => exact ⟨_, rfl⟩
        | some v =>
          simp only
          split_ifs
          · exact ih h
          · exact ⟨_, rfl⟩
  obtain ⟨e, he⟩ := key l.figs hk
  unfold saveOutput
  simp only [he]
  simp

/-! ## Non-trivial cases -/

/-- The entries of docs/source/examples/custom_saving.rst, and one that varies. -/
def exHook : OutHook where
  figs := [("active_layer", "active_layer")]
  grids := [("actlay", ⟨"active_layer", "fraction", ["time", "x", "y"]⟩)]
  metas := [("water_parcels", ⟨some "Np_water", "parcels"⟩), ("wetness", ⟨none, "fraction"⟩)]

/-- An object with the attributes of these. -/
def exSub (M : Live L W m K) (n : ℤ) (g : Grid L W K) (x : K) : SubModel L W m K where
  M := M
  own := fun a => if a = "active_layer" then some (.nums g) else if a = "Np_water" then some (.int n)
    else if a = "wetness" then some (.num x) else none

lemma exSub_own (M : Live L W m K) (n : ℤ) (g : Grid L W K) (x : K) :
    (exSub M n g x).getAttr "active_layer" = some (.nums g) ∧
    (exSub M n g x).getAttr "Np_water" = some (.int n) ∧
    (exSub M n g x).getAttr "wetness" = some (.num x) := by
  have h : ∀ a, attrGrid M.S a = none → attrNum M a = none → dget (fixedMeta M) a = none →
      (exSub M n g x).getAttr a = (exSub M n g x).own a := by
    intro a h1 h2 h3
    have h1' : attrGrid (exSub M n g x).M.S a = none := h1
    have h2' : attrNum (exSub M n g x).M a = none := h2
    have h3' : dget (fixedMeta (exSub M n g x).M) a = none := h3
    simp only [SubModel.getAttr, h1', h2', h3']
  have hf : ∀ a, a ∉ standardNames → dget (fixedMeta M) a = none := by
    intro a ha
    refine dget_none.2 fun hc => ha ?_
    obtain ⟨v, hv⟩ := mem_dkeys.1 hc
    obtain ⟨b, u, hb⟩ := fixedMeta_standard (X := exSub M n g x) hv
    exact standardMeta_names _ a (mem_dkeys.2 ⟨_, hb⟩)
  refine ⟨?_, ?_, ?_⟩
  · rw [h _ rfl rfl (hf _ (by decide))]; rfl
  · rw [h _ rfl rfl (hf _ (by decide))]; rfl
  · rw [h _ rfl rfl (hf _ (by decide))]; rfl

example : Documented false exHook := by
  refine ⟨by decide, by decide, by decide, by decide, ?_⟩
  intro k e h
  simp only [exHook, dget] at h
  split_ifs at h
  rw [Option.some.injEq] at h
  subst h
  rfl

example (M : Live 3 4 1 ℚ) : Present exHook (exSub M 200 (fun _ => 1 / 2) (1 / 3)) := by
  obtain ⟨h1, h2, h3⟩ := exSub_own M 200 (fun _ => 1 / 2) (1 / 3)
  refine ⟨?_, ?_, ?_, ?_⟩
  · intro k a h
    simp only [exHook, dget] at h
    split_ifs at h
    rw [Option.some.injEq] at h
    subst h
    exact ⟨_, h1⟩
  · intro k e h
    simp only [exHook, dget] at h
    split_ifs at h
    rw [Option.some.injEq] at h
    subst h
    exact ⟨_, h1⟩
  · intro k a u h
    simp only [exHook, dget] at h
    split_ifs at h
    · simp only [Option.some.injEq, MetaEntry.mk.injEq] at h
      obtain ⟨rfl, rfl⟩ := h
      exact ⟨_, h2⟩
    · simp at h
  · intro k u h
    simp only [exHook, dget] at h
    split_ifs at h with hk1 hk2
    · simp at h
    · subst hk2
      exact ⟨_, h3⟩

-- the bed is saved as well, so `C109_saved_partial` applies
example : ∃ g, lastSet [(GridFlag.eta, true)] g = some true := ⟨.eta, by decide⟩
-- the defaults of pyDeltaRCM/default.yml: `C109_nothing` and `C109_metadata_only` apply
example : ∀ g, lastSet ([] : List (GridFlag × Bool)) g ≠ some true := by simp [lastSet]

end Verif.Props
