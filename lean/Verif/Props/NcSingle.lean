import Verif.Model.NcSingle
import Verif.Spec.NcSingle
import Verif.Props.NcFile
import Verif.Props.FloatSetup
import Verif.Props.FloatResume

/-!
# C128: the output file in single precision
-/

set_option linter.unusedSectionVars false
set_option linter.unusedSimpArgs false

namespace Verif.Props

open Verif.Model Verif.Lemmas Verif.Spec

variable {K : Type*} [Field K] [LinearOrder K] [IsStrictOrderedRing K] [FloorRing K] {σ : Type*}
  {L W m : ℕ} {F D : Rounding K}

/-! ## Rounding when writing is writing rounded numbers -/

/-- The object with all its saved numbers rounded. -/
def roundLive (F : Rounding K) (M : Live L W m K) : Live L W m K :=
  { M with
    S := { M.S with
      eta := fun c => F.fl (M.S.eta c), stage := fun c => F.fl (M.S.stage c)
      depth := fun c => F.fl (M.S.depth c), qw := fun c => F.fl (M.S.qw c)
      uw := fun c => F.fl (M.S.uw c), qs := fun c => F.fl (M.S.qs c)
      sandFrac := fun c => F.fl (M.S.sandFrac c), qx := fun c => F.fl (M.S.qx c)
      qy := fun c => F.fl (M.S.qy c), ux := fun c => F.fl (M.S.ux c)
      uy := fun c => F.fl (M.S.uy c), time := F.fl M.S.time, HSL := F.fl M.S.HSL }
    I := { M.I with fBedload := F.fl M.I.fBedload, C0pct := F.fl M.I.C0pct, u0 := F.fl M.I.u0 } }

lemma attrGrid_round (F : Rounding K) (M : Live L W m K) (a : String) :
    attrGrid (roundLive F M).S a = (attrGrid M.S a).map fun g c => F.fl (g c) := by
  unfold attrGrid
  split <;> simp [roundLive]

lemma attrNum_round (F : Rounding K) (M : Live L W m K) (a : String) :
    attrNum (roundLive F M) a = (attrNum M a).map F.fl := by
  unfold attrNum
  split <;> simp [roundLive]

lemma documentedGrid_round (F : Rounding K) (M : Live L W m K) (a : String) :
    documentedGrid (roundLive F M).S a = (documentedGrid M.S a).map fun g c => F.fl (g c) := by
  simp only [documentedGrid, apply_ite (Option.map fun (g : Grid L W K) c => F.fl (g c)), Option.map_some,
    Option.map_none]
  rfl

lemma writeGridsR_eq (F : Rounding K) (M : Live L W m K) (i : ℕ) (es : List (String × String))
    (f : NcFile L W K) : writeGridsR F M.S i es f = writeGrids (roundLive F M).S i es f := by
  induction es generalizing f with
  | nil => rfl
  | cons e es ih =>
    obtain ⟨k, a⟩ := e
    simp only [writeGridsR, writeGrids, attrGrid_round]
    cases attrGrid M.S a with
    | none => rfl
    | some g =>
      simp only [Option.map_some]
      cases dget f.vars k with
      | none => rfl
      | some v => exact ih _

lemma writeMetaR_eq (F : Rounding K) (M : Live L W m K) (i : ℕ) (es : List (String × String))
    (f : NcFile L W K) : writeMetaR F M i es f = writeMeta (roundLive F M) i es f := by
  induction es generalizing f with
  | nil => rfl
  | cons e es ih =>
    obtain ⟨k, a⟩ := e
    simp only [writeMetaR, writeMeta, attrNum_round]
    cases attrNum M k with
    | none => rfl
    | some g =>
      simp only [Option.map_some]
      cases dget f.varying k with
      | none => rfl
      | some v => exact ih _

lemma writeRecordR_eq (F : Rounding K) (A : SaveSet) (M : Live L W m K) (i : ℕ) (f : NcFile L W K) :
    writeRecordR F A M i f = writeRecord A (roundLive F M) i f := by
  simp only [writeRecordR, writeRecord, writeGridsR_eq, writeMetaR_eq]
  rfl

lemma writeRecordsR_eq (F : Rounding K) (A : SaveSet) (Ms : List (Live L W m K)) (i : ℕ)
    (f : NcFile L W K) : writeRecordsR F A Ms i f = writeRecords A (Ms.map (roundLive F)) i f := by
  induction Ms generalizing i f with
  | nil => rfl
  | cons M Ms ih =>
    simp only [writeRecordsR, writeRecords, List.map_cons, writeRecordR_eq, ih]
    generalize writeRecord A (roundLive F M) i f = r
    obtain ⟨a, _ | e⟩ := r <;> rfl

lemma writeRecordsR_append (A : SaveSet) : ∀ (Ms Ns : List (Live L W m K)) (i : ℕ) (f f1 : NcFile L W K),
    writeRecordsR F A Ms i f = (f1, none) →
    writeRecordsR F A (Ms ++ Ns) i f = writeRecordsR F A Ns (i + Ms.length) f1 := by
  intro Ms
  induction Ms with
  | nil =>
    intro Ns i f f1 h
    simp only [writeRecordsR, Prod.mk.injEq, and_true] at h
    subst h
    rfl
  | cons M Ms ih =>
    intro Ns i f f1 h
    simp only [writeRecordsR, List.cons_append] at h ⊢
    generalize writeRecordR F A M i f = r at h ⊢
    obtain ⟨a, _ | e⟩ := r
    · simp only at h ⊢
      rw [ih _ _ _ _ h, List.length_cons]
      congr 1
      omega
    · simp at h

/-! ## Changes of a file that do not matter for writing -/

/-- A change of a file, variable by variable. -/
def changed (p : NcVar K → NcVar K) (q : NcVar (Grid L W K) → NcVar (Grid L W K))
    (x y : Option String × Coord L W K → Option String × Coord L W K)
    (z : Dict (Option String × MetaVal L W K) → Dict (Option String × MetaVal L W K)) (f : NcFile L W K) :
    NcFile L W K where
  dims := f.dims
  time := p f.time
  x := x f.x
  y := y f.y
  vars := f.vars.map fun e => (e.1, q e.2)
  fixed := z f.fixed
  varying := f.varying.map fun e => (e.1, p e.2)

lemma dset_mapv {V U : Type*} (q : V → U) (d : Dict V) (k : String) (v : V) :
    (dset d k v).map (fun e => (e.1, q e.2)) = dset (d.map fun e => (e.1, q e.2)) k (q v) := by
  induction d with
  | nil => rfl
  | cons e d ih =>
    obtain ⟨a, b⟩ := e
    simp only [dset, List.map_cons]
    split_ifs <;> simp [ih]

section
variable {p : NcVar K → NcVar K} {q : NcVar (Grid L W K) → NcVar (Grid L W K)}
  {x y : Option String × Coord L W K → Option String × Coord L W K}
  {z : Dict (Option String × MetaVal L W K) → Dict (Option String × MetaVal L W K)}

lemma changed_grids (hq : ∀ v i (g : Grid L W K), q (v.write i fun c => F.fl (g c)) =
      (q v).write i fun c => F.fl (g c)) (S : State L W K) (i : ℕ) (es : List (String × String))
    (f : NcFile L W K) : writeGridsR F S i es (changed p q x y z f) =
      ((changed p q x y z (writeGridsR F S i es f).1), (writeGridsR F S i es f).2) := by
  induction es generalizing f with
  | nil => rfl
  | cons e es ih =>
    obtain ⟨k, a⟩ := e
    simp only [writeGridsR]
    cases attrGrid S a with
    | none => rfl
    | some g =>
      simp only
      have h1 : dget (changed p q x y z f).vars k = (dget f.vars k).map q :=
        dget_mapk (fun _ => q) f.vars k
      rw [h1]
      cases dget f.vars k with
      | none => rfl
      | some v =>
        simp only [Option.map_some]
        rw [← ih]
        congr 1
        simp only [changed, dset_mapv, hq]

lemma changed_meta (hp : ∀ v i (a : K), p (v.write i (F.fl a)) = (p v).write i (F.fl a))
    (M : Live L W m K) (i : ℕ) (es : List (String × String))
    (f : NcFile L W K) : writeMetaR F M i es (changed p q x y z f) =
      ((changed p q x y z (writeMetaR F M i es f).1), (writeMetaR F M i es f).2) := by
  induction es generalizing f with
  | nil => rfl
  | cons e es ih =>
    obtain ⟨k, a⟩ := e
    simp only [writeMetaR]
    cases attrNum M k with
    | none => rfl
    | some g =>
      simp only
      have h1 : dget (changed p q x y z f).varying k = (dget f.varying k).map p :=
        dget_mapk (fun _ => p) f.varying k
      rw [h1]
      cases dget f.varying k with
      | none => rfl
      | some v =>
        simp only [Option.map_some]
        rw [← ih]
        congr 1
        simp only [changed, dset_mapv, hp]

lemma changed_record (hp : ∀ v i (a : K), p (v.write i (F.fl a)) = (p v).write i (F.fl a))
    (hq : ∀ v i (g : Grid L W K), q (v.write i fun c => F.fl (g c)) = (q v).write i fun c => F.fl (g c))
    (A : SaveSet) (M : Live L W m K) (i : ℕ) (f : NcFile L W K) :
    writeRecordR F A M i (changed p q x y z f) =
      ((changed p q x y z (writeRecordR F A M i f).1), (writeRecordR F A M i f).2) := by
  simp only [writeRecordR]
  have h1 : (if (A.metadata || A.anyGrids) = true then
      { changed p q x y z f with time := (changed p q x y z f).time.write i (F.fl M.S.time) }
      else changed p q x y z f) =
      changed p q x y z (if (A.metadata || A.anyGrids) = true then
        { f with time := f.time.write i (F.fl M.S.time) } else f) := by
    split_ifs
    · simp only [changed, hp]
    · rfl
  rw [h1]
  generalize (if (A.metadata || A.anyGrids) = true then
        { f with time := f.time.write i (F.fl M.S.time) } else f) = f1
  have h2 : (if A.anyGrids = true then writeGridsR F M.S i A.vars (changed p q x y z f1)
      else (changed p q x y z f1, none)) =
      (changed p q x y z (if A.anyGrids = true then writeGridsR F M.S i A.vars f1 else (f1, none)).1,
        (if A.anyGrids = true then writeGridsR F M.S i A.vars f1 else (f1, none)).2) := by
    split_ifs
    · exact changed_grids hq _ _ _ _
    · rfl
  rw [h2]
  generalize (if A.anyGrids = true then writeGridsR F M.S i A.vars f1 else (f1, none)) = r
  obtain ⟨f2, _ | e⟩ := r
  · simp only
    split_ifs
    · exact changed_meta hp _ _ _ _
    · rfl
  · rfl

lemma changed_records (hp : ∀ v i (a : K), p (v.write i (F.fl a)) = (p v).write i (F.fl a))
    (hq : ∀ v i (g : Grid L W K), q (v.write i fun c => F.fl (g c)) = (q v).write i fun c => F.fl (g c))
    (A : SaveSet) (Ms : List (Live L W m K)) (i : ℕ) (f : NcFile L W K) :
    writeRecordsR F A Ms i (changed p q x y z f) =
      ((changed p q x y z (writeRecordsR F A Ms i f).1), (writeRecordsR F A Ms i f).2) := by
  induction Ms generalizing i f with
  | nil => rfl
  | cons M Ms ih =>
    simp only [writeRecordsR]
    rw [changed_record hp hq]
    generalize writeRecordR F A M i f = r
    obtain ⟨a, _ | e⟩ := r
    · exact ih _ _
    · rfl

end

lemma copyFileR_changed (F : Rounding K) (f : NcFile L W K) : copyFileR F f =
    changed (fun v => ⟨none, fun i => (v.data i).map F.fl⟩)
      (fun v => ⟨none, fun i => (v.data i).map fun g c => F.fl (g c)⟩)
      (fun e => (none, e.2.again F)) (fun e => (none, e.2.again F))
      (fun d => d.map fun e => (e.1, none, e.2.2.again F)) f := rfl

/-- Writing to the copy of a file is writing to the file, copied. -/
lemma copy_records (A : SaveSet) (Ms : List (Live L W m K)) (i : ℕ) (f : NcFile L W K) :
    writeRecordsR F A Ms i (copyFileR F f) =
      (copyFileR F (writeRecordsR F A Ms i f).1, (writeRecordsR F A Ms i f).2) := by
  rw [copyFileR_changed]
  refine changed_records ?_ ?_ A Ms i f
  · intro v i a
    simp only [NcVar.write, NcVar.mk.injEq, true_and]
    funext j
    by_cases h : j = i
    · subst h; simp [F.idem]
    · simp [Function.update_of_ne h]
  · intro v i g
    simp only [NcVar.write, NcVar.mk.injEq, true_and]
    funext j
    by_cases h : j = i
    · subst h; simp [F.idem]
    · simp [Function.update_of_ne h]

/-! ## The file -/

/-- The file with all its numbers rounded again. -/
def againFile (F : Rounding K) : NcFile L W K → NcFile L W K :=
  changed (fun v => ⟨v.units, fun i => (v.data i).map F.fl⟩)
    (fun v => ⟨v.units, fun i => (v.data i).map fun g c => F.fl (g c)⟩)
    (fun e => (e.1, e.2.again F)) (fun e => (e.1, e.2.again F))
    (fun d => d.map fun e => (e.1, e.2.1, e.2.2.again F))

lemma again_fresh (F D : Rounding K) (legacy : Bool) (A : SaveSet) (M : Live L W m K) :
    againFile F (freshFileR F D legacy A M) = freshFileR F D legacy A M := by
  simp only [againFile, changed, freshFileR, NcFile.mk.injEq, true_and, Option.map_none, List.map_map,
    Prod.mk.injEq]
  have hx : ((coordsR F D legacy M.I.dx).1 : Coord L W K).again F = (coordsR F D legacy M.I.dx).1 := by
    unfold coordsR
    split_ifs <;> simp [Coord.again, F.idem, Function.comp_def]
  have hy : ((coordsR F D legacy M.I.dx).2 : Coord L W K).again F = (coordsR F D legacy M.I.dx).2 := by
    unfold coordsR
    split_ifs <;> simp [Coord.again, F.idem, Function.comp_def]
  refine ⟨hx, hy, rfl, ?_, ?_⟩
  · split_ifs
    · unfold fixedMetaR
      split_ifs <;> simp [MetaVal.again, F.idem]
    · rfl
  · split_ifs
    · rfl
    · rfl

/-- Rounding the numbers of a file again changes nothing. -/
lemma again_records {A : SaveSet} {Ms : List (Live L W m K)} {legacy : Bool} {M0 : Live L W m K}
    {f : NcFile L W K} (h : writeRecordsR F A Ms 0 (freshFileR F D legacy A M0) = (f, none)) :
    againFile F f = f := by
  have hw := changed_records (F := F) (p := fun v => ⟨v.units, fun i => (v.data i).map F.fl⟩)
    (q := fun v => ⟨v.units, fun i => (v.data i).map fun g c => F.fl (g c)⟩)
    (x := fun e => (e.1, e.2.again F)) (y := fun e => (e.1, e.2.again F))
    (z := fun d => d.map fun e => (e.1, e.2.1, e.2.2.again F)) (by
      intro v i a
      simp only [NcVar.write, NcVar.mk.injEq, true_and]
      funext j
      by_cases h : j = i
      · subst h; simp [F.idem]
      · simp [Function.update_of_ne h]) (by
      intro v i g
      simp only [NcVar.write, NcVar.mk.injEq, true_and]
      funext j
      by_cases h : j = i
      · subst h; simp [F.idem]
      · simp [Function.update_of_ne h]) A Ms 0 (freshFileR F D legacy A M0)
  have e := again_fresh F D legacy A M0
  unfold againFile at e
  rw [e, h] at hw
  exact (Prod.mk.inj hw).1.symm

lemma copy_same {f : NcFile L W K} (h : againFile F f = f) : SameContents f (copyFileR F f) := by
  constructor
  · rfl
  · have := congrArg (fun f : NcFile L W K => f.time.data) h
    exact this
  · have := congrArg (fun f : NcFile L W K => f.x.2) h
    exact this
  · have := congrArg (fun f : NcFile L W K => f.y.2) h
    exact this
  · intro name
    have e1 : dget (copyFileR F f).vars name = (dget f.vars name).map fun v =>
        ⟨none, fun i => (v.data i).map fun g c => F.fl (g c)⟩ :=
      dget_mapk (fun _ (v : NcVar (Grid L W K)) => (⟨none, fun i => (v.data i).map fun (g : Grid L W K) c => F.fl (g c)⟩ : NcVar (Grid L W K))) f.vars name
    have e2 : dget (againFile F f).vars name = (dget f.vars name).map fun v =>
        ⟨v.units, fun i => (v.data i).map fun g c => F.fl (g c)⟩ :=
      dget_mapk (fun _ (v : NcVar (Grid L W K)) => (⟨v.units, fun i => (v.data i).map fun (g : Grid L W K) c => F.fl (g c)⟩ : NcVar (Grid L W K))) f.vars name
    rw [h] at e2
    rw [e1]
    conv_rhs => rw [e2]
    cases dget f.vars name <;> rfl
  · intro name
    have e1 : dget (copyFileR F f).fixed name = (dget f.fixed name).map fun v => (none, v.2.again F) :=
      dget_mapk (fun _ (v : Option String × MetaVal L W K) => ((none : Option String), v.2.again F)) f.fixed name
    have e2 : dget (againFile F f).fixed name = (dget f.fixed name).map fun v => (v.1, v.2.again F) :=
      dget_mapk (fun _ (v : Option String × MetaVal L W K) => (v.1, v.2.again F)) f.fixed name
    rw [h] at e2
    rw [e1]
    conv_rhs => rw [e2]
    cases dget f.fixed name <;> rfl
  · intro name
    have e1 : dget (copyFileR F f).varying name = (dget f.varying name).map fun v =>
        ⟨none, fun i => (v.data i).map F.fl⟩ :=
      dget_mapk (fun _ (v : NcVar K) => (⟨none, fun i => (v.data i).map F.fl⟩ : NcVar K)) f.varying name
    have e2 : dget (againFile F f).varying name = (dget f.varying name).map fun v =>
        ⟨v.units, fun i => (v.data i).map F.fl⟩ :=
      dget_mapk (fun _ (v : NcVar K) => (⟨v.units, fun i => (v.data i).map F.fl⟩ : NcVar K)) f.varying name
    rw [h] at e2
    rw [e1]
    conv_rhs => rw [e2]
    cases dget f.varying name <;> rfl

/-- The file after the records of `Ms`. -/
lemma file_rounded (legacy : Bool) (ops : List (GridFlag × Bool)) (metadata : Bool)
    (hfile : metadata = true ∨ ∃ g, lastSet ops g = some true) (M0 : Live L W m K)
    (Ms : List (Live L W m K)) :
    ∃ f, writeRecordsR F (saveSet ops metadata) Ms 0
        (freshFileR F D legacy (saveSet ops metadata) M0) = (f, none) ∧
      FileRounded F D legacy (fun g => lastSet ops g = some true) M0 Ms f ∧ UnitsOk f ∧
      SameContents f (copyFileR F f) := by
  obtain ⟨f0, f, h0, h1, h2, h3⟩ := C75_file legacy false ops metadata hfile M0 (Ms.map (roundLive F)) none
    (.inl rfl)
  have e0 : f0 = freshFile legacy (saveSet ops metadata) M0 := by
    unfold initFile at h0
    split_ifs at h0 with ha hb
    · simpa using h0.symm
    · simp at h0
  subst e0
  have hm : (saveSet ops metadata).metadata = true := by
    simp only [saveSet, Bool.or_eq_true]
    rcases hfile with h | ⟨g, h⟩
    · exact .inl h
    · exact .inr ((anyGrids_iff ops).2 ⟨g, (flagValue_iff ops g).2 h⟩)
  have hfresh : freshFileR F D legacy (saveSet ops metadata) M0 =
      changed id id (fun _ => (some "meter", (coordsR F D legacy M0.I.dx).1))
        (fun _ => (some "meter", (coordsR F D legacy M0.I.dx).2)) (fun _ => fixedMetaR F M0)
        (freshFile legacy (saveSet ops metadata) M0) := by
    simp [freshFileR, changed, freshFile, hm]
  have hw := changed_records (F := F) (p := id) (q := id)
    (x := fun _ => (some "meter", (coordsR F D legacy M0.I.dx).1))
    (y := fun _ => (some "meter", (coordsR F D legacy M0.I.dx).2)) (z := fun _ => fixedMetaR F M0)
    (fun _ _ _ => rfl) (fun _ _ _ => rfl) (saveSet ops metadata) Ms 0
    (freshFile legacy (saveSet ops metadata) M0)
  rw [← hfresh, writeRecordsR_eq F _ _ _ (freshFile _ _ _), h1] at hw
  have hvars : ∀ g : NcFile L W K, g.vars.map (fun e => (e.1, id e.2)) = g.vars := fun g => by simp
  have hvarying : ∀ g : NcFile L W K, g.varying.map (fun e => (e.1, id e.2)) = g.varying := fun g => by simp
  have hmap : ∀ i : ℕ, (Ms.map (roundLive F))[i]? = (Ms[i]?).map (roundLive F) := fun i =>
    List.getElem?_map
  have hgrids : ∀ g, lastSet ops g = some true → ∀ name ∈ askedFor g, ∃ u d, dget f.vars name = some ⟨u, d⟩ ∧
      ∀ i, d i = (Ms[i]?).bind fun M => (documentedGrid M.S name).map fun h c => F.fl (h c) := by
    intro g hg name hn
    obtain ⟨u, hu⟩ := h2.grids g hg name hn
    refine ⟨u, _, hu, fun i => ?_⟩
    rw [hmap]
    cases Ms[i]? with
    | none => rfl
    | some M => exact documentedGrid_round F M name
  refine ⟨_, hw, ?_, ?_, ?_⟩
  · constructor
    · show f.time.data = _
      rw [h2.time]
      funext i
      rw [hmap]
      cases Ms[i]? <;> rfl
    · show ∀ g, lastSet ops g = some true → ∀ name ∈ askedFor g, ∃ u d,
        dget (f.vars.map fun e => (e.1, id e.2)) name = some ⟨u, d⟩ ∧ _
      rw [hvars]
      exact hgrids
    · show ∀ name ∈ dkeys (f.vars.map fun e => (e.1, id e.2)), _
      rw [hvars]
      exact h2.only
    · exact h2.dims
    · rintro rfl
      refine ⟨_, rfl, by simp, fun i hi => ?_⟩
      simp [hi]
    · rintro rfl
      refine ⟨_, rfl, by simp, fun i hi => ?_⟩
      simp [hi]
    · rintro rfl
      rfl
    · rintro rfl
      rfl
    · show ∃ u, dget (f.varying.map fun e => (e.1, id e.2)) "H_SL" = _
      rw [hvarying]
      obtain ⟨u, hu⟩ := h2.varying.sea
      exact ⟨u, hu.trans (by congr 2; funext i; rw [hmap]; cases Ms[i]? <;> rfl)⟩
    · show ∃ u, dget (f.varying.map fun e => (e.1, id e.2)) "f_bedload" = _
      rw [hvarying]
      obtain ⟨u, hu⟩ := h2.varying.bedload
      exact ⟨u, hu.trans (by congr 2; funext i; rw [hmap]; cases Ms[i]? <;> rfl)⟩
    · show ∃ u, dget (f.varying.map fun e => (e.1, id e.2)) "C0_percent" = _
      rw [hvarying]
      obtain ⟨u, hu⟩ := h2.varying.conc
      exact ⟨u, hu.trans (by congr 2; funext i; rw [hmap]; cases Ms[i]? <;> rfl)⟩
    · show ∃ u, dget (f.varying.map fun e => (e.1, id e.2)) "u0" = _
      rw [hvarying]
      obtain ⟨u, hu⟩ := h2.varying.velocity
      exact ⟨u, hu.trans (by congr 2; funext i; rw [hmap]; cases Ms[i]? <;> rfl)⟩
    · show dkeys (f.varying.map fun e => (e.1, id e.2)) = _
      rw [hvarying]
      exact h2.varying.only
    · exact ⟨_, rfl⟩
    · exact ⟨_, rfl⟩
    · exact ⟨_, rfl⟩
    · exact ⟨_, rfl⟩
    · exact ⟨_, rfl⟩
    · exact ⟨_, _, rfl, resolveHb_cases M0.I⟩
    · exact ⟨_, rfl⟩
    · intro h
      show ∃ u, dget (fixedMetaR F M0) "sigma" = _
      unfold fixedMetaR
      rw [if_pos h]
      exact ⟨_, rfl⟩
    · intro h
      show ∃ u n, dget (fixedMetaR F M0) "start_subsidence" = _ ∧ _
      unfold fixedMetaR
      rw [if_pos h]
      exact ⟨_, _, rfl, toI8_spec _⟩
    · intro h
      show dget (fixedMetaR F M0) "sigma" = _ ∧ dget (fixedMetaR F M0) "start_subsidence" = _
      unfold fixedMetaR
      rw [if_neg (by rw [h]; decide)]
      exact ⟨rfl, rfl⟩
  · constructor
    · exact h3.time
    · rfl
    · rfl
    · show ∀ name v, dget (f.vars.map fun e => (e.1, id e.2)) name = some v → _
      rw [hvars]
      exact h3.vars
    · intro name v h
      have := mem_of_dget (show dget (fixedMetaR F M0) name = some v from h)
      unfold fixedMetaR at this
      split_ifs at this <;>
      simp only [List.append_nil, List.mem_append, List.mem_cons, List.not_mem_nil, or_false,
        Prod.mk.injEq] at this <;>
      aesop
    · show ∀ name v, dget (f.varying.map fun e => (e.1, id e.2)) name = some v → _
      rw [hvarying]
      exact h3.varying
  · exact copy_same (again_records hw)

/-- C128: the output file of a model, whatever the settings and the fields at each save: as in C75, and each
number is the one of the model, rounded once. -/
theorem C128_file (legacy clobber : Bool) (ops : List (GridFlag × Bool)) (metadata : Bool)
    (hfile : metadata = true ∨ ∃ g, lastSet ops g = some true) (M0 : Live L W m K)
    (Ms : List (Live L W m K)) (found : Option (NcFile L W K)) (hfound : found = none ∨ clobber = true) :
    ∃ f0 f, initFileR F D legacy clobber (saveSet ops metadata) M0 found = .ok (some f0) ∧
      writeRecordsR F (saveSet ops metadata) Ms 0 f0 = (f, none) ∧
      FileRounded F D legacy (fun g => lastSet ops g = some true) M0 Ms f ∧ UnitsOk f := by
  obtain ⟨f, h1, h2, h3, -⟩ := file_rounded (F := F) (D := D) legacy ops metadata hfile M0 Ms
  refine ⟨_, f, ?_, h1, h2, h3⟩
  have hm : (saveSet ops metadata).metadata = true := by
    simp only [saveSet, Bool.or_eq_true]
    rcases hfile with h | ⟨g, h⟩
    · exact .inl h
    · exact .inr ((anyGrids_iff ops).2 ⟨g, (flagValue_iff ops g).2 h⟩)
  unfold initFileR
  rw [hm]
  rcases hfound with rfl | rfl <;> simp

lemma copy_rounded {legacy : Bool} {on : GridFlag → Prop} {M : Live L W m K} {Ms : List (Live L W m K)}
    {f : NcFile L W K} (h : FileRounded F D legacy on M Ms f) (hs : SameContents f (copyFileR F f)) :
    FileRounded F D legacy on M Ms (copyFileR F f) := by
  have hv : ∀ {name : String} {d : ℕ → Option K}, (∃ u, dget f.varying name = some ⟨u, d⟩) →
      ∃ u, dget (copyFileR F f).varying name = some ⟨u, d⟩ := by
    rintro name d ⟨u, hu⟩
    have := hs.varying name
    rw [hu] at this
    cases hc : dget (copyFileR F f).varying name with
    | none => rw [hc] at this; simp at this
    | some v =>
      rw [hc] at this
      simp only [Option.map_some, Option.some.injEq] at this
      exact ⟨v.units, by rw [← this]⟩
  have hx : ∀ {name : String} {d : MetaVal L W K}, (∃ u, dget f.fixed name = some (u, d)) →
      ∃ u, dget (copyFileR F f).fixed name = some (u, d) := by
    rintro name d ⟨u, hu⟩
    have := hs.fixed name
    rw [hu] at this
    cases hc : dget (copyFileR F f).fixed name with
    | none => rw [hc] at this; simp at this
    | some v =>
      rw [hc] at this
      simp only [Option.map_some, Option.some.injEq] at this
      exact ⟨v.1, by rw [← this]⟩
  have hn : ∀ {name : String}, dget f.fixed name = none → dget (copyFileR F f).fixed name = none := by
    intro name hu
    have := hs.fixed name
    rw [hu] at this
    cases hc : dget (copyFileR F f).fixed name with
    | none => rfl
    | some v => rw [hc] at this; simp at this
  constructor
  · rw [hs.time]; exact h.time
  · intro g hg name hname
    obtain ⟨u, d, hd, hi⟩ := h.grids g hg name hname
    have := hs.vars name
    rw [hd] at this
    cases hc : dget (copyFileR F f).vars name with
    | none => rw [hc] at this; simp at this
    | some v =>
      rw [hc] at this
      simp only [Option.map_some, Option.some.injEq] at this
      exact ⟨v.units, d, by rw [← this], hi⟩
  · intro name hname
    refine h.only name ?_
    have e : dkeys (copyFileR F f).vars = dkeys f.vars := by
      simp [copyFileR, dkeys, Function.comp_def]
    rwa [e] at hname
  · exact h.dims
  · rw [hs.x]; exact h.x
  · rw [hs.y]; exact h.y
  · rw [hs.x]; exact h.legacyX
  · rw [hs.y]; exact h.legacyY
  · exact hv h.sea
  · exact hv h.bedload
  · exact hv h.conc
  · exact hv h.velocity
  · rw [← h.onlyVarying]
    simp [copyFileR, dkeys, Function.comp_def]
  · exact hx h.L0
  · exact hx h.N0
  · exact hx h.CTR
  · exact hx h.dx
  · exact hx h.h0
  · obtain ⟨u, x, a, b⟩ := h.hb
    obtain ⟨u', a'⟩ := hx ⟨u, a⟩
    exact ⟨u', x, a', b⟩
  · exact hx h.cells
  · exact fun ht => hx (h.sigma ht)
  · intro ht
    obtain ⟨u, x, a, b⟩ := h.start ht
    obtain ⟨u', a'⟩ := hx ⟨u, a⟩
    exact ⟨u', x, a', b⟩
  · exact fun ht => ⟨hn (h.off ht).1, hn (h.off ht).2⟩

/-- C128: resuming does not round a second time: the copy of the file has the same numbers, and after further
saves the file holds all saves as if the run had not stopped. -/
theorem C128_resume (legacy : Bool) (ops : List (GridFlag × Bool)) (metadata : Bool)
    (hfile : metadata = true ∨ ∃ g, lastSet ops g = some true) (M0 : Live L W m K)
    (Ms Ns : List (Live L W m K)) :
    ∃ f f', writeRecordsR F (saveSet ops metadata) Ms 0
        (freshFileR F D legacy (saveSet ops metadata) M0) = (f, none) ∧ SameContents f (copyFileR F f) ∧
      writeRecordsR F (saveSet ops metadata) Ns Ms.length (copyFileR F f) = (f', none) ∧
      FileRounded F D legacy (fun g => lastSet ops g = some true) M0 (Ms ++ Ns) f' := by
  obtain ⟨f, h1, -, -, h2⟩ := file_rounded (F := F) (D := D) legacy ops metadata hfile M0 Ms
  obtain ⟨e, k1, k2, -, k3⟩ := file_rounded (F := F) (D := D) legacy ops metadata hfile M0 (Ms ++ Ns)
  rw [writeRecordsR_append _ _ _ _ _ _ h1, zero_add] at k1
  refine ⟨f, copyFileR F e, h1, h2, ?_, copy_rounded k2 k3⟩
  rw [copy_records, k1]

/-! ## The fields are saved as they are -/

/-- The fields of the sediment hold numbers of their type. -/
structure SedStored (F : Rounding K) (S : State L W K) : Prop where
  qs : ∀ c, F.fl (S.qs c) = S.qs c
  sandFrac : ∀ c, F.fl (S.sandFrac c) = S.sandFrac c
  activeLayer : ∀ c, F.fl (S.activeLayer c) = S.activeLayer c

lemma update_stored {f : Grid L W K} {c : Cell L W} {v : K} (hf : ∀ c, F.fl (f c) = f c) (hv : F.fl v = v)
    (x : Cell L W) : F.fl (Function.update f c v x) = Function.update f c v x := by
  by_cases hx : x = c
  · subst hx; rw [Function.update_self]; exact hv
  · rw [Function.update_of_ne hx]; exact hf x

lemma sedStepR_flux {g : Rng K σ} {k : Sed} {P : Params L W m K} [NeZero L] [NeZero W]
    {st st1 : SedSt L W K} {px py : ℤ} {res res1 : K} {s s1 : σ} {r : SedRec L W K}
    (h0 : ∀ c, F.fl (st.S.qs c) = st.S.qs c)
    (h : sedStepR F D g k P st px py res s = .ok (st1, res1, r, s1)) (c : Cell L W) :
    F.fl (st1.S.qs c) = st1.S.qs c := by
  obtain ⟨c0, d, c', cp, w, -, -, -, -, -, -, -, -, -, -, -, -, hb, -, -, ha, h1, -⟩ := sedStepR_ok h
  rw [recordDepositR_frame, hb] at ha
  rw [h1, ha]
  show F.fl ((fieldsAtR F D k P st.S c0 c' d res).qs c) = (fieldsAtR F D k P st.S c0 c' d res).qs c
  cases k with
  | mud => exact h0 c
  | sand =>
    simp only [fieldsAtR, partitionSandR]
    split_ifs
    · exact update_stored (update_stored h0 (F.idem _)) (F.idem _) c
    · exact h0 c

lemma routeParcelsR_flux {g : Rng K σ} {k : Sed} {P : Params L W m K} [NeZero L] [NeZero W]
    {S S' : State L W K} {s s' : σ} {logs : List (SedLog L W K)}
    (h : routeParcelsR F D g k P S s = .ok (S', logs, s')) (h0 : ∀ c, F.fl (S.qs c) = S.qs c) :
    ∀ c, F.fl (S'.qs c) = S'.qs c :=
  routeParcelsR_inv (fun S => ∀ c, F.fl (S.qs c) = S.qs c)
    (fun st c hI => by
      cases k
      · exact update_stored hI (F.idem _)
      · exact hI)
    (fun st px py res s st1 res1 r s1 hI hs => sedStepR_flux hI hs) h h0

lemma computeSandFracR_stored {P : Params L W m K} {eta0 : Grid L W K} {S : State L W K} {c : Cell L W}
    (h1 : F.fl (S.sandFrac c) = S.sandFrac c) (h2 : F.fl (S.activeLayer c) = S.activeLayer c) :
    F.fl ((computeSandFracR F P eta0 S).sandFrac c) = (computeSandFracR F P eta0 S).sandFrac c ∧
    F.fl ((computeSandFracR F P eta0 S).activeLayer c) = (computeSandFracR F P eta0 S).activeLayer c := by
  have key : ∀ (p : Prop) [Decidable p] (a b : K), F.fl a = a → F.fl b = b →
      F.fl (if p then a else b) = if p then a else b := by
    intro p _ a b ha hb
    split_ifs <;> assumption
  have hfrac : ∀ (p : Prop) [Decidable p] (f g : Grid L W K), F.fl (f c) = f c → F.fl (g c) = g c →
      F.fl ((if p then f else g) c) = (if p then f else g) c := by
    intro p _ a b ha hb
    split_ifs <;> assumption
  unfold computeSandFracR
  have h3 := hfrac (anyCell (fun c => decide (F.fl (S.eta c - eta0 c) < 0)) = true)
    (assign (assign S.sandFrac (fun c => decide (S.eta c < F.fl (eta0 c - F.fl P.actThick)))
      (fun _ => F.fl P.sandFracBc)) (fun c => decide (F.fl (S.eta c - eta0 c) < 0) &&
        decide (S.eta c ≥ F.fl (eta0 c - F.fl P.actThick))) S.activeLayer) S.sandFrac
    (key _ _ _ h2 (key _ _ _ (F.idem _) h1)) h1
  exact ⟨hfrac _ _ _ (key _ _ _ (F.idem _) h3) h3, hfrac _ _ _ (key _ _ _ (F.idem _) h2) h2⟩

/-- The saved fields of the sediment hold numbers of their precision after a timestep. -/
lemma sedStored_step {g : Rng K σ} {P : Params L W m K} [NeZero L] [NeZero W] {S S' : State L W K}
    {s s' : σ} {l : StepLog L W K} (hS : SedStored F S) (h : timestepR F D g P S s = .ok (S', l, s')) :
    SedStored F S' := by
  obtain ⟨s1, hw, hsed, h3, e⟩ := timestepR_ok h
  obtain ⟨-, -, -, -, -, -, -, w8, w9⟩ := C100_ground hw
  obtain ⟨-, -, -, -, r5, r6, -⟩ := routeSedimentR_water hsed
  obtain ⟨r, -⟩ := step_resultR h
  obtain ⟨-, -, -, -, -, -, f7, -⟩ := r.flow
  have e1 : ∀ c, F.fl (l.routed.sandFrac c) = l.routed.sandFrac c := by rw [r5, w8]; exact hS.sandFrac
  have e2 : ∀ c, F.fl (l.routed.activeLayer c) = l.routed.activeLayer c := by
    rw [r6, w9]; exact hS.activeLayer
  constructor
  · rw [f7]
    obtain ⟨S1, s2, h1, h2⟩ := routeSedimentR_ok hsed
    exact routeParcelsR_flux h2 (by
      have := routeParcelsR_flux h1 (fun c => by exact fl_zero F)
      exact this)
  · intro c
    rw [e, applySubsidenceR_frame]
    exact (computeSandFracR_stored (P := P) (eta0 := S.eta) (by exact e1 c) (by exact e2 c)).1
  · intro c
    rw [e, applySubsidenceR_frame]
    exact (computeSandFracR_stored (P := P) (eta0 := S.eta) (by exact e1 c) (by exact e2 c)).2

lemma documented_stored {S : State L W K} (h1 : Stored F S) (h2 : SedStored F S) (name : String) :
    ((documentedGrid S name).map fun h c => F.fl (h c)) = documentedGrid S name := by
  have e1 : (fun c => F.fl (S.eta c)) = S.eta := funext h1.bed
  have e2 : (fun c => F.fl (S.stage c)) = S.stage := funext h1.stage
  have e3 : (fun c => F.fl (S.depth c)) = S.depth := funext h1.depth
  have e4 : (fun c => F.fl (S.qw c)) = S.qw := funext h1.qw
  have e5 : (fun c => F.fl (S.uw c)) = S.uw := funext h1.uw
  have e6 : (fun c => F.fl (S.qs c)) = S.qs := funext h2.qs
  have e7 : (fun c => F.fl (S.sandFrac c)) = S.sandFrac := funext h2.sandFrac
  have e8 : (fun c => F.fl (S.qx c)) = S.qx := funext h1.qx
  have e9 : (fun c => F.fl (S.qy c)) = S.qy := funext h1.qy
  have e10 : (fun c => F.fl (S.ux c)) = S.ux := funext h1.ux
  have e11 : (fun c => F.fl (S.uy c)) = S.uy := funext h1.uy
  simp only [documentedGrid, apply_ite (Option.map fun (g : Grid L W K) c => F.fl (g c)), Option.map_some,
    Option.map_none, e1, e2, e3, e4, e5, e6, e7, e8, e9, e10, e11]

/-- C128: the output file of a run. Record `i` of each grid is the field after `i k` timesteps, to the last
digit, where `k` updates reach the interval of saving; the time is the clock, rounded to single precision, and so
is the sea level. There are no other records. -/
theorem C128_records [NeZero L] [NeZero W] (hL : 2 ≤ L) (hW : 2 ≤ W) {g : Rng K σ} {cfg : OutCfg K}
    {P : Params L W m K} {k : ℕ} (hk : Reaches D P.dt cfg.saveDt k) {S : State L W K} (h0 : S.time = 0)
    (hS : Stored F S) (hS' : SedStored F S) {s : σ} {n : ℕ} {M : Sim L W K σ}
    (hr : updatesR F D g cfg (List.replicate n P) (startSim cfg S s) = .ok M) (I : Input K) (E : Derived K)
    (legacy : Bool) (ops : List (GridFlag × Bool)) (metadata : Bool)
    (hfile : metadata = true ∨ ∃ f, lastSet ops f = some true) :
    ∃ f, writeRecordsR F (saveSet ops metadata)
        (M.saves.map fun w => (⟨I, E, P, w.2.state⟩ : Live L W m K)) 0
        (freshFileR F D legacy (saveSet ops metadata) ⟨I, E, P, S⟩) = (f, none) ∧
      (∀ i, i * k ≤ n → ∃ S' ls s',
        timestepsR F D g (List.replicate (i * k) P) S s = .ok (S', ls, s') ∧
        f.time.data i = some (F.fl (ticks D P.dt 0 (i * k))) ∧
        (∀ fl, lastSet ops fl = some true → ∀ name ∈ askedFor fl,
          (dget f.vars name).map (·.data i) = some (documentedGrid S' name)) ∧
        (dget f.varying "H_SL").map (·.data i) =
          some (some (F.fl (ticks D (D.fl (P.SLR * P.dt)) S.HSL (i * k))))) ∧
      ∀ i, n < i * k → f.time.data i = none := by
  obtain ⟨f, h1, h2, -, -⟩ := file_rounded (F := F) (D := D) legacy ops metadata hfile
    (⟨I, E, P, S⟩ : Live L W m K) (M.saves.map fun w => ⟨I, E, P, w.2.state⟩)
  obtain ⟨hlen, -, hs⟩ := C102_saves hk h0 hr
  have hk0 : 0 < k := hk.1
  refine ⟨f, h1, fun i hi => ?_, fun i hi => ?_⟩
  · obtain ⟨S', ls, s', ht, hsv, -⟩ := hs i ((Nat.le_div_iff_mul_le hk0).2 hi)
    have hst := (timestepsR_inv (A := fun Q => Q = P) (I := fun T => Stored F T ∧ SedStored F T)
      (J := fun _ => True) (fun Q T s T' l s' hQ hT ht =>
        ⟨⟨(C101_stored hL hW hT.1 ht).2.2, sedStored_step hT.2 ht⟩, trivial⟩) ht
      (fun Q hQ => List.eq_of_mem_replicate hQ) ⟨hS, hS'⟩).1
    obtain ⟨c1, c2, -⟩ := C101_clock ht
    have hget : (M.saves.map fun w => (⟨I, E, P, w.2.state⟩ : Live L W m K))[i]? = some ⟨I, E, P, S'⟩ := by
      rw [List.getElem?_map, hsv]
      rfl
    refine ⟨S', ls, s', ht, ?_, ?_, ?_⟩
    · rw [h2.time]
      simp only [hget, Option.map_some, c1, h0]
    · intro fl hfl name hn
      obtain ⟨u, d, hu, hd⟩ := h2.grids fl hfl name hn
      rw [hu]
      simp only [Option.map_some, hd, hget, Option.bind_some]
      rw [documented_stored hst.1 hst.2]
    · obtain ⟨u, hu⟩ := h2.sea
      rw [hu]
      simp only [Option.map_some, hget, c2]
  · rw [h2.time]
    have : M.saves.length ≤ i := by
      rw [hlen]
      exact (Nat.div_lt_iff_lt_mul hk0).2 hi
    simp [this]

/-- C128: a configuration that can be run, in the arithmetic of the program: the model is created, its runs
do not abort, and the output file is as in `C128_records`. -/
theorem C128_run {K : Type} [Field K] [LinearOrder K] [IsStrictOrderedRing K] [FloorRing K] {F D : Rounding K}
    {σ : Type} (hFD : Within F D) (hu : D.u ≤ 1 / 16) (h1 : D.fl 1 = 1) {O : Oracle K}
    (hO : OracleOk O) {I : Input K} (hI : RunnableR D I) {g : Rng K σ} (hg : PositiveDraws g) :
    ∃ (L W m : ℕ) (_ : NeZero L) (_ : NeZero W) (P : Params L W m K) (S : State L W K),
      createR F D O I = .ok ⟨L, W, m, P, S⟩ ∧
      ∀ (cfg : OutCfg K) (k : ℕ), Reaches D P.dt cfg.saveDt k → ∀ (n : ℕ) (s : σ), ∃ M,
        updatesR F D g cfg (List.replicate n P) (startSim cfg S s) = .ok M ∧
        ∀ (E : Derived K) (legacy : Bool) (ops : List (GridFlag × Bool)) (metadata : Bool),
        (metadata = true ∨ ∃ f, lastSet ops f = some true) →
        ∃ f, writeRecordsR F (saveSet ops metadata)
            (M.saves.map fun w => (⟨I, E, P, w.2.state⟩ : Live L W m K)) 0
            (freshFileR F D legacy (saveSet ops metadata) ⟨I, E, P, S⟩) = (f, none) ∧
          (∀ i, i * k ≤ n → ∃ S' ls s',
            timestepsR F D g (List.replicate (i * k) P) S s = .ok (S', ls, s') ∧
            f.time.data i = some (F.fl (ticks D P.dt 0 (i * k))) ∧
            (∀ fl, lastSet ops fl = some true → ∀ name ∈ askedFor fl,
              (dget f.vars name).map (·.data i) = some (documentedGrid S' name)) ∧
            (dget f.varying "H_SL").map (·.data i) =
              some (some (F.fl (ticks D (D.fl (I.SLR * P.dt)) I.HSL (i * k))))) ∧
          ∀ i, n < i * k → f.time.data i = none := by
  obtain ⟨L, W, m, iL, iW, P, S, hc, hL, hW, -, hdt, hWat, hSed, hRan, hDef, hN, hSt, hn, hsig⟩ :=
    C107_created (F := F) hu h1 hO hI
  refine ⟨L, W, m, iL, iW, P, S, hc, fun cfg k hk n s => ?_⟩
  have hL8 := hI.L
  have hW5 := hI.W
  have hfix : P.SLR = I.SLR ∧ S.time = 0 ∧ S.HSL = I.HSL ∧ ∀ c, S.qs c = 0 := by
    obtain ⟨-, B, hB, e⟩ := createR_ok hc
    cases e
    exact ⟨rfl, rfl, rfl, fun _ => rfl⟩
  obtain ⟨e1, e2, e3, e4⟩ := hfix
  have hSS : SedStored F S := by
    refine ⟨fun c => by rw [e4, fl_zero], fun c => ?_, fun c => ?_⟩
    · obtain ⟨-, -, -, -, -, -, -, -, -, h9, h10⟩ := C107_initial hc c
      have : S.sandFrac c = F.fl I.sandFracBc := h9
      rw [this, F.idem]
    · obtain ⟨-, -, -, -, -, -, -, -, -, h9, h10⟩ := C107_initial hc c
      have : S.activeLayer c = F.fl I.sandFracBc := h10
      rw [this, F.idem]
  obtain ⟨f1, -, f3⟩ := start_frame cfg S s
  obtain ⟨M, hM⟩ := C102_accepted hFD hg cfg (Ps := List.replicate n P) (fun Q hQ => by
    rw [List.eq_of_mem_replicate hQ]; exact ⟨hWat, hSed, hRan.h0⟩)
    (M := startSim cfg S s) f3 (by rw [f1]; exact hN.depth) (by rw [f1]; exact hn)
  refine ⟨M, hM, fun E legacy ops metadata hfile => ?_⟩
  obtain ⟨f, k1, k2, k3⟩ := C128_records (by omega) (by omega) hk e2 hSt hSS hM I E legacy ops metadata hfile
  rw [e1, e3] at k2
  exact ⟨f, k1, k2, k3⟩

/-- The default configuration, with any interval of saving that is reached: for instance one timestep. -/
theorem C128_default {σ : Type} {g : Rng ℚ σ} (hg : PositiveDraws g) :
    ∃ (L W m : ℕ) (_ : NeZero L) (_ : NeZero W) (P : Params L W m ℚ) (S : State L W ℚ),
      createR single double exOracle exDoubles = .ok ⟨L, W, m, P, S⟩ ∧
      ∀ (cfg : OutCfg ℚ) (k : ℕ), Reaches double P.dt cfg.saveDt k → ∀ (n : ℕ) (s : σ), ∃ M,
        updatesR single double g cfg (List.replicate n P) (startSim cfg S s) = .ok M := by
  have hFD : Within single double := within_binary _ _ (by norm_num)
  obtain ⟨L, W, m, iL, iW, P, S, h, hr⟩ := C128_run (σ := σ) hFD double_small
    (by decide +kernel) exOracleOk exDoublesRunnable hg
  refine ⟨L, W, m, iL, iW, P, S, h, fun cfg k hk n s => ?_⟩
  obtain ⟨M, hM, -⟩ := hr cfg k hk n s
  exact ⟨M, hM⟩

/-! ## The times -/

/-- Successive clock readings differ after rounding, if there are not too many. -/
lemma rounded_tick (hDF : D.u ≤ F.u) {dt : K} (hdt : 0 < dt) {n : ℕ}
    (hn : 3 * (2 * (n : K) + 1) * F.u < 1) :
    F.fl (ticks D dt 0 n) < F.fl (ticks D dt 0 (n + 1)) := by
  have hu := F.u_nonneg
  have hd := D.u_nonneg
  have hnn : (0 : K) ≤ n := Nat.cast_nonneg n
  have hT := ticks_nonneg (R := D) hdt.le n
  have hT1 := ticks_nonneg (R := D) hdt.le (n + 1)
  have hnu : (n : K) * D.u ≤ n * F.u := mul_le_mul_of_nonneg_left hDF hnn
  have hle : ticks D dt 0 n ≤ 2 * n * dt := by
    have h1 := (C95_drift (R := D) hdt.le n).2 (by nlinarith)
    have h2 : 1 / 2 ≤ 1 - n * D.u := by nlinarith
    nlinarith [mul_le_mul_of_nonneg_left h2 hT]
  have hge : (ticks D dt 0 n + dt) * (1 - D.u) ≤ ticks D dt 0 (n + 1) := fl_ge D (add_nonneg hT hdt.le)
  have a := fl_le F hT
  have b := fl_ge F hT1
  have hu1 : 0 ≤ 1 - F.u := by nlinarith
  have c : (ticks D dt 0 n + dt) * (1 - D.u) * (1 - F.u) ≤ ticks D dt 0 (n + 1) * (1 - F.u) :=
    mul_le_mul_of_nonneg_right hge hu1
  refine a.trans_lt (lt_of_lt_of_le ?_ (c.trans b))
  set T := ticks D dt 0 n with hTd
  have h3 : 3 * F.u * (T + dt) < dt := by
    have : 3 * F.u * (T + dt) ≤ 3 * F.u * ((2 * n + 1) * dt) :=
      mul_le_mul_of_nonneg_left (by linarith) (by positivity)
    nlinarith
  have h4 : D.u * (T + dt) ≤ F.u * (T + dt) := mul_le_mul_of_nonneg_right hDF (by linarith)
  nlinarith [mul_nonneg (mul_nonneg hd hu) (add_nonneg hT hdt.le), mul_nonneg hu hdt.le]

lemma rounded_ticks (hDF : D.u ≤ F.u) {dt : K} (hdt : 0 < dt) {a b : ℕ} (hab : a < b)
    (hn : 3 * (2 * (b : K) + 1) * F.u < 1) : F.fl (ticks D dt 0 a) < F.fl (ticks D dt 0 b) := by
  have hu := F.u_nonneg
  have hc : (a : K) ≤ b := by exact_mod_cast hab.le
  refine (rounded_tick hDF hdt (n := a) (by nlinarith)).trans_le ?_
  exact F.mono (ticks_mono (fl_zero D) hdt.le hab)

/-- C128: the times of a run in the file never decrease, each is off by a factor of at most `1 ± u`, and they
are distinct for runs that are not too long: with 24 binary digits, of up to two million timesteps.
Partial: C128 claims that the times of all records are distinct, see `C128_same_time`. -/
theorem C128_times_partial (hDF : D.u ≤ F.u) {dt : K} (hdt : 0 < dt) {k n : ℕ} (hk : 0 < k)
    {time : ℕ → Option K}
    (h : ∀ i, i * k ≤ n → time i = some (F.fl (ticks D dt 0 (i * k)))) :
    (∀ i j a b, i ≤ j → j * k ≤ n → time i = some a → time j = some b → a ≤ b) ∧
    (∀ i, i * k ≤ n → ∃ a, time i = some a ∧
      |a - ticks D dt 0 (i * k)| ≤ F.u * ticks D dt 0 (i * k)) ∧
    (3 * (2 * (n : K) + 1) * F.u < 1 →
      ∀ i j a b, i < j → j * k ≤ n → time i = some a → time j = some b → a < b) := by
  have hu := F.u_nonneg
  refine ⟨?_, ?_, ?_⟩
  · intro i j a b hij hj ha hb
    have hik : i * k ≤ j * k := Nat.mul_le_mul_right k hij
    rw [h i (hik.trans hj), Option.some.injEq] at ha
    rw [h j hj, Option.some.injEq] at hb
    rw [← ha, ← hb]
    exact F.mono (ticks_mono (fl_zero D) hdt.le hik)
  · intro i hi
    refine ⟨_, h i hi, ?_⟩
    have := F.err (ticks D dt 0 (i * k))
    rwa [abs_of_nonneg (a := ticks D dt 0 (i * k)) (ticks_nonneg hdt.le _)] at this
  · intro hn i j a b hij hj ha hb
    have hik : i * k < j * k := Nat.mul_lt_mul_of_pos_right hij hk
    rw [h i (hik.le.trans hj), Option.some.injEq] at ha
    rw [h j hj, Option.some.injEq] at hb
    rw [← ha, ← hb]
    refine rounded_ticks hDF hdt hik ?_
    have hc : ((j * k : ℕ) : K) ≤ n := by exact_mod_cast hj
    nlinarith

/-- With single and double precision the times of a run of two million timesteps are distinct. -/
example : double.u ≤ single.u ∧ 3 * (2 * ((2000000 : ℕ) : ℚ) + 1) * single.u < 1 := by
  constructor <;> norm_num [binary]

lemma ticks_half (n : ℕ) (hn : n ≤ 2 ^ 53) : ticks double (1 / 2) 0 n = n / 2 := by
  induction n with
  | zero => simp [ticks]
  | succ n ih =>
    rw [ticks, ih (by omega)]
    have := binary_nat (K := ℚ) (p := 53) (by norm_num) (n := n + 1) (m := 1) (e := -1) (by omega)
    have e : ((n : ℚ) / 2 + 1 / 2) = ((n + 1 : ℕ) : ℚ) * ((1 : ℕ) * 2 ^ (-1 : ℤ)) := by
      push_cast
      rw [zpow_neg_one]
      ring
    rw [e, this, ← e]
    push_cast
    ring

/-- C128 fails: in a run of 335 million timesteps of half a second, saved every two and a half seconds, two
successive records have the same time in the file, though different times in the model. -/
theorem C128_same_time (I : Input ℚ) (E : Derived ℚ) (n : ℕ) (hn : (2 ^ 26 + 1) * 5 ≤ n) :
    ∃ (M : Sim 4 3 ℚ Unit) (f : NcFile 4 3 ℚ) (t : ℚ),
      updatesR single double constRng exOutDefault (List.replicate n exParamsHalf)
        (startSim exOutDefault exState ()) = .ok M ∧
      writeRecordsR single (saveSet [(.eta, true)] true)
        (M.saves.map fun w => (⟨I, E, exParamsHalf, w.2.state⟩ : Live 4 3 1 ℚ)) 0
        (freshFileR single double false (saveSet [(.eta, true)] true) ⟨I, E, exParamsHalf, exState⟩) =
          (f, none) ∧
      f.time.data (2 ^ 26) = some t ∧ f.time.data (2 ^ 26 + 1) = some t ∧
      (∃ S S', M.saves[2 ^ 26]? = some (2 ^ 26, ⟨t, S⟩) ∧
        M.saves[2 ^ 26 + 1]? = some (2 ^ 26 + 1, ⟨t + 5 / 2, S'⟩)) := by
  have hFD : Within single double := within_binary _ _ (by norm_num)
  obtain ⟨e1, -, e3⟩ := start_frame exOutDefault exState ()
  obtain ⟨M, h⟩ := C102_accepted hFD exPositive exOutDefault (Ps := List.replicate n exParamsHalf) (by
      intro P h
      rw [List.eq_of_mem_replicate h]
      exact ⟨exSetupHalf, exSedDomainHalf, by norm_num [exParamsHalf, exParams]⟩)
    (M := startSim exOutDefault exState ()) e3 (by rw [e1]; intro c; norm_num [exState])
    (by rw [e1]; decide)
  have hr : Reaches double exParamsHalf.dt exOutDefault.saveDt 5 := by
    refine ⟨by norm_num, by decide +kernel, fun j _ hj => ?_⟩
    have : ∀ j < 5, ticks double exParamsHalf.dt 0 j < exOutDefault.saveDt := by decide +kernel
    exact this j hj
  obtain ⟨f, h1, h2, -⟩ := file_rounded (F := single) (D := double) false [(.eta, true)] true (.inl rfl)
    (⟨I, E, exParamsHalf, exState⟩ : Live 4 3 1 ℚ) (M.saves.map fun w => ⟨I, E, exParamsHalf, w.2.state⟩)
  obtain ⟨-, -, hs⟩ := C102_saves hr rfl h
  have key : ∀ i, i * 5 ≤ n → i * 5 ≤ 2 ^ 53 → ∃ S', M.saves[i]? = some (i, ⟨((i * 5 : ℕ) : ℚ) / 2, S'⟩) ∧
      f.time.data i = some (single.fl (((i * 5 : ℕ) : ℚ) / 2)) := by
    intro i hi hi2
    obtain ⟨S', ls, s', ht, hsv, -⟩ := hs i ((Nat.le_div_iff_mul_le (by norm_num)).2 hi)
    have e : ticks double exParamsHalf.dt 0 (i * 5) = ((i * 5 : ℕ) : ℚ) / 2 := ticks_half _ hi2
    obtain ⟨c1, -⟩ := C101_clock ht
    refine ⟨S', by rw [hsv, e], ?_⟩
    rw [h2.time]
    simp only [List.getElem?_map, hsv, Option.map_some]
    rw [c1, show (exState : State 4 3 ℚ).time = 0 from rfl, e]
  obtain ⟨S1, a1, a2⟩ := key (2 ^ 26) (by omega) (by norm_num)
  obtain ⟨S2, b1, b2⟩ := key (2 ^ 26 + 1) hn (by norm_num)
  refine ⟨M, f, ((2 ^ 26 * 5 : ℕ) : ℚ) / 2, h, h1, ?_, ?_, S1, S2, a1, ?_⟩
  · rw [a2]
    decide +kernel
  · rw [b2]
    decide +kernel
  · rw [b1]
    congr 3
    norm_num

end Verif.Props
