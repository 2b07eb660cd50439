import Verif.Props.MirrorWater
import Verif.Props.SedWalk

/-!
# C80: the parcels of sediment in the mirrored basin, whole timesteps and runs
-/

set_option linter.unusedSectionVars false
set_option linter.unusedSimpArgs false

namespace Verif.Props

open Verif.Model Verif.Lemmas Verif.Spec

variable {K : Type*} [Field K] [LinearOrder K] [IsStrictOrderedRing K] [FloorRing K] {σ : Type*}
  {L W m : ℕ} [NeZero L] [NeZero W]

/-- The mirror on the state of a router. -/
def mirrorSed (st : SedSt L W K) : SedSt L W K := ⟨mirrorState st.S, mirror st.padDepth⟩

/-- Every padded cell is seen from a cell. -/
lemma pad_seen (p : Cell (L + 2) (W + 2)) : ∃ (c : Cell L W) (d : Fin 9), ∀ {α : Type _}
    (pad : Grid (L + 2) (W + 2) α), padSlice pad c d = pad p := by
  have hL : 0 < L := Nat.pos_of_ne_zero (NeZero.ne L)
  have hW : 0 < W := Nat.pos_of_ne_zero (NeZero.ne W)
  have key : ∀ {n : ℕ} (_ : 0 < n) (i : Fin (n + 2)), ∃ (a : Fin n) (b : Fin 3), a.val + b.val = i.val := by
    intro n hn i
    have := i.isLt
    by_cases h0 : i.val ≤ 2
    · by_cases h1 : i.val < n
      · exact ⟨⟨i.val, h1⟩, ⟨0, by norm_num⟩, rfl⟩
      · exact ⟨⟨n - 1, by omega⟩, ⟨i.val - (n - 1), by omega⟩, by simp only; omega⟩
    · exact ⟨⟨i.val - 2, by omega⟩, ⟨2, by norm_num⟩, by simp only; omega⟩
  obtain ⟨a, b, hab⟩ := key hL p.1
  obtain ⟨a', b', hab'⟩ := key hW p.2
  refine ⟨(a, a'), ⟨3 * b.val + b'.val, by omega⟩, ?_⟩
  intro α pad
  unfold padSlice
  congr 1
  refine Prod.ext (Fin.ext ?_) (Fin.ext ?_)
  · simp only; omega
  · simp only; omega

/-- Padding commutes with the mirror. -/
lemma customPad_mirror {α : Type*} [Zero α] (f : Grid L W α) : customPad (mirror f) = mirror (customPad f) := by
  funext p
  obtain ⟨c, d, h⟩ := pad_seen p
  rw [← h (customPad (mirror f)), ← h (mirror (customPad f)), padSlice_mirror]
  exact nbrs_mirror f c d

/-- Index pairs on the other side. -/
lemma pyCell_mirror {L W : ℕ} {x y y' : ℤ} {c : Cell L W} (h : pyCell L W x y = some c) (h0 : 0 ≤ y) (h1 : y < W)
    (hy : y' = (W : ℤ) - 1 - y) : pyCell L W x y' = some (mirrorCell c) := by
  subst hy
  unfold pyCell at h ⊢
  split at h
  · rename_i i j e1 e2
    cases h
    rw [e1]
    unfold pyIdx at e2 ⊢
    rw [dif_pos ⟨h0, h1⟩] at e2
    rw [dif_pos ⟨by omega, by omega⟩]
    cases e2
    simp only [mirrorCell, Option.some.injEq, Prod.mk.injEq, true_and]
    refine Fin.ext ?_
    simp only [Fin.val_rev]
    omega
  · cases h

/-- What a step does once the direction is chosen. -/
def moveOn (k : Sed) (P : Params L W m K) (st : SedSt L W K) (c0 : Cell L W) (px py : ℤ) (res : K) (d : Fin 9) :
    Except Err (SedSt L W K × K × SedRec L W K) :=
  match pyCell L W (px + jwalk d) (py + iwalk d), pyCell (L + 2) (W + 2) (px + jwalk d + 1) (py + iwalk d + 1) with
  | some c, some cp =>
    let S1 := fieldsAt k P st.S c0 c d res
    let v := volumeChange k P S1 c res
    let S2 := recordDeposit k S1 c v
    let S3 := updateFields P S2 c v
    .ok (⟨S3, Function.update st.padDepth cp (S3.depth c)⟩, res - v,
      ⟨(px, py), d, (px + jwalk d, py + iwalk d), c0, c, res, v, S1, S3⟩)
  | _, _ => .error .index

/-- The same with the tape. -/
def moveTape (x : Except Err (SedSt L W K × K × SedRec L W K)) (t : List K) :
    Except Err (SedSt L W K × K × SedRec L W K × List K) :=
  match x with
  | .error e => .error e
  | .ok (st, res, r) => .ok (st, res, r, t)

lemma sedStep_move {k : Sed} {P : Params L W m K} {st : SedSt L W K} {c0 : Cell L W} {w : Fin 9 → K}
    (hw : sedWeights st.padDepth (customPad P.modSed) (customPad P.cellType) st.S.qx st.S.qy P.s2
        P.s05 P.dryDepth (P.pwSed k) c0 = .ok w) (res : K) {d : Fin 9} {t : List K}
    (h : randomPick w (tape.next t).1 = some d) :
    sedStep tape k P st (c0.1.val : ℤ) (c0.2.val : ℤ) res t =
      moveTape (moveOn k P st c0 (c0.1.val : ℤ) (c0.2.val : ℤ) res d) (tape.next t).2 := by
  unfold sedStep chooseNext moveOn
  rw [cellAt_coords]
  simp only [hw, h]
  rcases pyCell L W ((c0.1.val : ℤ) + jwalk d) ((c0.2.val : ℤ) + iwalk d) with _ | c
  · rfl
  · rcases pyCell (L + 2) (W + 2) ((c0.1.val : ℤ) + jwalk d + 1) ((c0.2.val : ℤ) + iwalk d + 1) with _ | cp
    · rfl
    · rfl

/-- What is left to do after one step of mirrored parcels. -/
def TwinSed (P : Params L W m K) (F G : List K → Except Err (SedSt L W K × K × SedRec L W K × List K)) : Prop :=
  ∃ st1 res1, ∃ r r' : SedRec L W K, PadOk st1 ∧ r'.cell = mirrorCell r.cell ∧
    (P.cellType r.cell ≠ -1 → ActiveCell P r.cell ∧ r.new = coords r.cell ∧
      r'.new = coords (mirrorCell r.cell)) ∧
    F = (fun t => .ok (st1, res1, r, t)) ∧ G = fun t => .ok (mirrorSed st1, res1, r', t)

/-- One step of mirrored parcels of sediment. -/
lemma sedStep_mirror {k : Sed} {P : Params L W m K}
    (hP : SedDomain P) {st : SedSt L W K} (hst : PadOk st) {c0 : Cell L W} (h0 : ActiveCell P c0) {res : K} :
    SameChances (OrFail (TwinSed P)) (sedStep tape k P st (c0.1.val : ℤ) (c0.2.val : ℤ) res)
      (sedStep tape k (mirrorParams P) (mirrorSed st) ((mirrorCell c0).1.val : ℤ)
        ((mirrorCell c0).2.val : ℤ) res) := by
  obtain ⟨a1, a2, a3⟩ := hP.active c0 h0
  obtain ⟨w, hw, hdist, hw4, hland⟩ := sed_weights k hP hst h0
  have hwm : sedWeights (mirrorSed st).padDepth (customPad (mirrorParams P).modSed)
      (customPad (mirrorParams P).cellType) (mirrorSed st).S.qx (mirrorSed st).S.qy (mirrorParams P).s2
      (mirrorParams P).s05 (mirrorParams P).dryDepth ((mirrorParams P).pwSed k) (mirrorCell c0) =
      .ok (fun d => w (mirrorDir d)) := by
    have := sedWeights_mirror (padD := st.padDepth) (padD' := mirror st.padDepth) P.modSed P.cellType
      st.S.qx st.S.qy P.s2 P.s05 P.dryDepth (P.pwSed k) (mirrorCell c0) (funext (padSlice_mirror _ _))
    rw [mirrorCell_mirror, hw] at this
    exact this
  have ht : 0 < total w := by unfold total; rw [hdist.2]; exact one_pos
  have key : SameChances (OrFail fun F G => ∃ st1 res1, ∃ r r' : SedRec L W K, r'.cell = mirrorCell r.cell ∧
      r'.new = (r.new.1, (W : ℤ) - 1 - r.new.2) ∧
      F = (fun t => .ok (st1, res1, r, t)) ∧ G = fun t => .ok (mirrorSed st1, res1, r', t))
      (sedStep tape k P st (c0.1.val : ℤ) (c0.2.val : ℤ) res)
      (sedStep tape k (mirrorParams P) (mirrorSed st) ((mirrorCell c0).1.val : ℤ)
        ((mirrorCell c0).2.val : ℤ) res) := by
    refine same_pick (w' := fun d => w (mirrorDir d)) mirrorPerm hdist.1 ht
      (fun d => by change w (mirrorDir (mirrorDir d)) = w d; rw [mirrorDir_mirror])
      (fun d t => moveTape (moveOn k P st c0 (c0.1.val : ℤ) (c0.2.val : ℤ) res d) t)
      (fun d t => moveTape (moveOn k (mirrorParams P) (mirrorSed st) (mirrorCell c0) ((mirrorCell c0).1.val : ℤ)
        ((mirrorCell c0).2.val : ℤ) res (mirrorDir d)) t)
      (fun d t h => sedStep_move hw res h) (fun d t h => sedStep_move hwm res h) ?_
    intro d _
    cases hmove : moveOn k P st c0 (c0.1.val : ℤ) (c0.2.val : ℤ) res d with
    | error e => exact .done (.inl ⟨e, rfl⟩)
    | ok a =>
      obtain ⟨st1, res1, r⟩ := a
      unfold moveOn at hmove
      split at hmove
      · rename_i c cp e1 e2
        cases hmove
        obtain ⟨m1, m2⟩ := mirrorDir_walk d
        obtain ⟨o1, o2⟩ := walk_offsets d
        have b2 := colOff_bounds d
        obtain ⟨q1, q2⟩ := mirror_coords c0
        have f1 : pyCell L W (((mirrorCell c0).1.val : ℤ) + jwalk (mirrorDir d))
            (((mirrorCell c0).2.val : ℤ) + iwalk (mirrorDir d)) = some (mirrorCell c) := by
          rw [m1, m2, q1, q2]
          exact pyCell_mirror e1 (by omega) (by omega) (by omega)
        have f2 : pyCell (L + 2) (W + 2) (((mirrorCell c0).1.val : ℤ) + jwalk (mirrorDir d) + 1)
            (((mirrorCell c0).2.val : ℤ) + iwalk (mirrorDir d) + 1) = some (mirrorCell cp) := by
          rw [m1, m2, q1, q2]
          exact pyCell_mirror e2 (by omega) (by push_cast; omega) (by push_cast; omega)
        obtain ⟨v1, v2⟩ := C80_sediment_step k P st.S c0 c d res
        refine .done (.inr ⟨_, _, _, ⟨(((mirrorCell c0).1.val : ℤ), ((mirrorCell c0).2.val : ℤ)), mirrorDir d,
          (((mirrorCell c0).1.val : ℤ) + jwalk (mirrorDir d),
          ((mirrorCell c0).2.val : ℤ) + iwalk (mirrorDir d)), mirrorCell c0, mirrorCell c, res,
          volumeChange k P (fieldsAt k P st.S c0 c d res) c res,
          fieldsAt k (mirrorParams P) (mirrorState st.S) (mirrorCell c0) (mirrorCell c) (mirrorDir d) res,
          mirrorState (updateFields P (recordDeposit k (fieldsAt k P st.S c0 c d res) c
            (volumeChange k P (fieldsAt k P st.S c0 c d res) c res)) c
            (volumeChange k P (fieldsAt k P st.S c0 c d res) c res))⟩, ?_, ?_, rfl, ?_⟩)
        · rfl
        · simp only [Prod.mk.injEq]
          rw [m1, m2, q1, q2]
          omega
        · funext t
          unfold moveOn moveTape
          simp only [f1, f2]
          have hS : (mirrorSed st).S = mirrorState st.S := rfl
          rw [v1] at v2
          simp only [hS, v1, v2, mirrorSed, Except.ok.injEq, Prod.mk.injEq, SedSt.mk.injEq, true_and, and_true]
          rw [← update_mirror]
          congr 1
          have hdm : ∀ T : State L W K, (mirrorState T).depth (mirrorCell c) = T.depth c :=
            fun T => mirror_at T.depth c
          exact hdm _
      · cases hmove
  refine same_imp ?_ (same_reach key)
  rintro F G ⟨⟨e, rfl⟩ | ⟨st1, res1, r, r', q1, q2, rfl, rfl⟩, t, hr⟩
  · exact .inl ⟨e, rfl⟩
  · obtain ⟨d1, -, d3⟩ := sedStep_domain tape_positive hP hst h0 (hr [])
    refine .inr ⟨st1, res1, r, r', d1, q1, ?_, rfl, rfl⟩
    intro hc
    obtain ⟨n1, n2⟩ := d3 hc
    refine ⟨n1, n2, ?_⟩
    rw [q2, n2]
    have n5 := mirror_coords r.cell
    simp only [coords, Prod.mk.injEq]
    omega

/-- What is left to do after the walk of mirrored parcels. -/
def TwinSedWalk (F G : List K → Except Err (SedSt L W K × K × List (SedRec L W K) × List K)) : Prop :=
  ∃ st1 res1, ∃ rs rs' : List (SedRec L W K), PadOk st1 ∧ F = (fun t => .ok (st1, res1, rs, t)) ∧
    G = fun t => .ok (mirrorSed st1, res1, rs', t)

/-- A step before the rest of a walk. -/
def moreRec (r : SedRec L W K) : Except Err (SedSt L W K × K × List (SedRec L W K) × List K) →
    Except Err (SedSt L W K × K × List (SedRec L W K) × List K)
  | .error e => .error e
  | .ok (st2, res2, rs, s2) => .ok (st2, res2, r :: rs, s2)

/-- The rest of a walk after one step. -/
def walkOn (k : Sed) (P : Params L W m K) (n : ℕ) : Except Err (SedSt L W K × K × SedRec L W K × List K) →
    Except Err (SedSt L W K × K × List (SedRec L W K) × List K)
  | .error e => .error e
  | .ok (st1, res1, r, s1) =>
    if P.cellType r.cell = -1 ∨ n = 0 then .ok (st1, res1, [r], s1)
    else moreRec r (sedLoop tape k P n st1 r.new.1 r.new.2 res1 s1)

lemma sedLoop_walk (k : Sed) (P : Params L W m K) (n : ℕ) (st : SedSt L W K) (x y : ℤ) (res : K) (t : List K) :
    sedLoop tape k P (n + 1) st x y res t = walkOn k P n (sedStep tape k P st x y res t) := by
  rw [sedLoop]
  rcases sedStep tape k P st x y res t with e | ⟨st1, res1, r, s1⟩
  · rfl
  · unfold walkOn
    simp only
    split
    · rfl
    · rcases sedLoop tape k P n st1 r.new.1 r.new.2 res1 s1 with e | ⟨st2, res2, rs, s2⟩ <;> rfl

/-- The walk of a mirrored parcel of sediment. -/
lemma sedLoop_mirror {k : Sed} {P : Params L W m K} (hP : SedDomain P) :
    ∀ {n : ℕ} {st : SedSt L W K} {c0 : Cell L W} {res : K}, PadOk st → ActiveCell P c0 →
    SameChances (OrFail TwinSedWalk) (sedLoop tape k P n st (c0.1.val : ℤ) (c0.2.val : ℤ) res)
      (sedLoop tape k (mirrorParams P) n (mirrorSed st) ((mirrorCell c0).1.val : ℤ)
        ((mirrorCell c0).2.val : ℤ) res) := by
  intro n
  induction n with
  | zero => intro st c0 res _ _; exact .done (.inl ⟨.diverge, rfl⟩)
  | succ n ih =>
    intro st c0 res hst h0
    refine same_try (sedStep_mirror hP hst h0) (walkOn k P n) (walkOn k (mirrorParams P) n) (fun _ => rfl)
      (sedLoop_walk k P n st _ _ res) (sedLoop_walk k (mirrorParams P) n _ _ _ res) ?_
    rintro F G ⟨st1, res1, r, r', d1, q1, q2, rfl, rfl⟩
    have hcell : (mirrorParams P).cellType r'.cell = P.cellType r.cell := by
      rw [q1]; exact mirror_at _ _
    unfold walkOn
    simp only [hcell]
    by_cases hstop : P.cellType r.cell = -1 ∨ n = 0
    · simp only [if_pos hstop]
      exact .done (.inr ⟨st1, res1, [r], [r'], d1, rfl, rfl⟩)
    · simp only [if_neg hstop]
      push Not at hstop
      obtain ⟨d4, d5, d6⟩ := q2 hstop.1
      rw [d5, d6]
      refine same_try (ih d1 d4) (moreRec r) (moreRec r') (fun _ => rfl) (fun _ => rfl) (fun _ => rfl) ?_
      rintro F G ⟨st2, res2, rs, rs', e1, rfl, rfl⟩
      exact .done (.inr ⟨st2, res2, r :: rs, r' :: rs', e1, rfl, rfl⟩)

lemma enter_mirror (k : Sed) (P : Params L W m K) (st : SedSt L W K) (c : Cell L W) :
    enterState k (mirrorParams P) (mirrorSed st) (mirrorCell c) = mirrorSed (enterState k P st c) := by
  cases k
  · unfold enterState enterSand mirrorSed
    simp only [SedSt.mk.injEq, and_true]
    unfold mirrorState
    simp only [State.mk.injEq, true_and, and_true]
    rw [mirror_at]
    exact update_mirror _ _ _
  · rfl

/-- The columns of mirrored start cells. -/
def TwinStart (P : Params L W m K) (i j : ℤ) : Prop :=
  ∃ k, i = ((P.inlet k).val : ℤ) ∧ j = ((P.inlet k).rev.val : ℤ)

/-- What is left to do after all mirrored parcels of one kind. -/
def TwinParcels (F G : List K → Except Err (SedSt L W K × List (SedLog L W K) × List K)) : Prop :=
  ∃ st1, ∃ logs logs' : List (SedLog L W K), F = (fun t => .ok (st1, logs, t)) ∧
    G = fun t => .ok (mirrorSed st1, logs', t)

/-- A parcel before others. -/
def moreParcels (l : SedLog L W K) : Except Err (SedSt L W K × List (SedLog L W K) × List K) →
    Except Err (SedSt L W K × List (SedLog L W K) × List K)
  | .error e => .error e
  | .ok (st3, logs, s2) => .ok (st3, l :: logs, s2)

/-- The other parcels after one. -/
def parcelsOn (k : Sed) (P : Params L W m K) (y : Fin W) (pys : List ℤ) :
    Except Err (SedSt L W K × K × List (SedRec L W K) × List K) →
    Except Err (SedSt L W K × List (SedLog L W K) × List K)
  | .error e => .error e
  | .ok (st2, res, rs, s1) => moreParcels ⟨y, rs, res⟩ (sedParcels tape k P pys st2 s1)

lemma sedParcels_first (k : Sed) (P : Params L W m K) (y : Fin W) (pys : List ℤ) (st : SedSt L W K) (t : List K) :
    sedParcels tape k P ((y.val : ℤ) :: pys) st t = parcelsOn k P y pys
      (sedLoop tape k P P.stepmax (enterState k P st ((0 : Fin L), y)) (((0 : Fin L), y).1.val : ℤ)
        (((0 : Fin L), y).2.val : ℤ) P.VpSed t) := by
  have hz : (((0 : Fin L), y).1.val : ℤ) = 0 := by simp
  have key : pyCell L W 0 (y.val : ℤ) = some ((0 : Fin L), y) := by
    have := pyCell_self ((0 : Fin L), y)
    rw [hz] at this
    exact this
  rw [sedParcels, key, hz]
  simp only
  rcases sedLoop tape k P P.stepmax (enterState k P st ((0 : Fin L), y)) 0 (y.val : ℤ) P.VpSed t
    with e | ⟨st2, res, rs, s1⟩
  · rfl
  · unfold parcelsOn
    simp only
    rcases sedParcels tape k P pys st2 s1 with e | ⟨st3, logs, s2⟩ <;> rfl

/-- All mirrored parcels of one kind. -/
lemma sedParcels_mirror {k : Sed} {P : Params L W m K} (hP : SedDomain P) :
    ∀ {is js : List ℤ}, List.Forall₂ (TwinStart P) is js → ∀ {st : SedSt L W K}, PadOk st →
    SameChances (OrFail TwinParcels) (sedParcels tape k P is st)
      (sedParcels tape k (mirrorParams P) js (mirrorSed st)) := by
  intro is js hij
  induction hij with
  | nil =>
    intro st _
    exact .done (.inr ⟨st, [], [], rfl, rfl⟩)
  | cons h1 h2 ih =>
    rename_i i j is js
    intro st hst
    obtain ⟨κ, rfl, rfl⟩ := h1
    refine same_try (sedLoop_mirror (k := k) hP (n := P.stepmax) (res := P.VpSed) (c0 := ((0 : Fin L), P.inlet κ))
      (enter_pad hst _) (hP.inlet κ)) (parcelsOn k P (P.inlet κ) is)
      (parcelsOn k (mirrorParams P) (P.inlet κ).rev js) (fun _ => rfl) (sedParcels_first k P _ is st) ?_ ?_
    · intro t
      have e3 : enterState k (mirrorParams P) (mirrorSed st) ((0 : Fin L), (P.inlet κ).rev) =
          mirrorSed (enterState k P st ((0 : Fin L), P.inlet κ)) :=
        enter_mirror k P st ((0 : Fin L), P.inlet κ)
      rw [sedParcels_first k (mirrorParams P) (P.inlet κ).rev js (mirrorSed st) t, e3]
      rfl
    · rintro F G ⟨st2, res, rs, rs', p1, rfl, rfl⟩
      refine same_try (ih p1) (moreParcels ⟨P.inlet κ, rs, res⟩) (moreParcels ⟨(P.inlet κ).rev, rs', res⟩)
        (fun _ => rfl) (fun _ => rfl) (fun _ => rfl) ?_
      rintro F G ⟨st3, logs, logs', rfl, rfl⟩
      exact .done (.inr ⟨st3, _ :: logs, _ :: logs', rfl, rfl⟩)

/-- The parcels once the start cells are drawn. -/
def parcelsFrom (k : Sed) (P : Params L W m K) (st : SedSt L W K) : Option (List ℤ) × List K →
    Except Err (State L W K × List (SedLog L W K) × List K)
  | (none, _) => .error .index
  | (some starts, t) =>
    match sedParcels tape k P starts st t with
    | .error e => .error e
    | .ok (st, logs, s2) => .ok (st.S, logs, s2)

/-- What is left to do is to return a state, and in the mirrored basin the mirrored state; `α` is the kind
of record kept. -/
def MirrorEndLog {α : Type*} (R : α → α → Prop) (F G : List K → Except Err (State L W K × α × List K)) : Prop :=
  ∃ S' : State L W K, ∃ l l' : α, R l l' ∧ (∀ c, 0 ≤ S'.depth c) ∧ F = (fun t => .ok (S', l, t)) ∧
    G = fun t => .ok (mirrorState S', l', t)

/-- C80: the routing of the sand or of the mud. -/
theorem C80_sediment_parcels {k : Sed} {P : Params L W m K} (hP : SedDomain P) {S : State L W K}
    (hd : ∀ c, 0 ≤ S.depth c) :
    SameChances (MirrorEndLog fun _ _ => True) (routeParcels tape k P S)
      (routeParcels tape k (mirrorParams P) (mirrorState S)) := by
  have key : SameChances (OrFail fun F G => ∃ S' : State L W K, ∃ l l', F = (fun t => .ok (S', l, t)) ∧
      G = fun t => .ok (mirrorState S', l', t)) (routeParcels tape k P S)
      (routeParcels tape k (mirrorParams P) (mirrorState S)) := by
    refine same_then (same_starts (K := K) hP.hm (fun i => ((P.inlet i).val : ℤ))
      (fun i => (((mirrorParams P).inlet i).val : ℤ)) (Q := TwinStart P) Fin.revPerm (by
        intro κ
        refine ⟨κ, rfl, ?_⟩
        change ((P.inlet κ.rev.rev).rev.val : ℤ) = _
        rw [Fin.rev_rev]) (numStarts k P)) (parcelsFrom k P ⟨S, customPad S.depth⟩)
      (parcelsFrom k (mirrorParams P) ⟨mirrorState S, customPad (mirrorState S).depth⟩) ?_ ?_ ?_
    · intro t
      unfold routeParcels parcelsFrom
      simp only
      cases getStartIndices (fun i => ((P.inlet i).val : ℤ))
        (getInletWeights (fun i => ((P.inlet i).val : ℤ)) : Fin m → K) (drawN tape (numStarts k P) t).1 with
      | none => rfl
      | some starts =>
        simp only
        rcases sedParcels tape k P starts ⟨S, customPad S.depth⟩ (drawN tape (numStarts k P) t).2
          with e | ⟨st, logs, s2⟩ <;> rfl
    · intro t
      have hn : numStarts k (mirrorParams P) = numStarts k P := by cases k <;> rfl
      unfold routeParcels parcelsFrom
      simp only [hn]
      cases getStartIndices (fun i => (((mirrorParams P).inlet i).val : ℤ))
        (getInletWeights (fun i => (((mirrorParams P).inlet i).val : ℤ)) : Fin m → K)
        (drawN tape (numStarts k P) t).1 with
      | none => rfl
      | some starts =>
        simp only
        rcases sedParcels tape k (mirrorParams P) starts ⟨mirrorState S, customPad (mirrorState S).depth⟩
          (drawN tape (numStarts k P) t).2 with e | ⟨st, logs, s2⟩ <;> rfl
    · rintro F G ⟨starts, starts', hs, rfl, rfl⟩
      have hpad : (⟨mirrorState S, customPad (mirrorState S).depth⟩ : SedSt L W K) =
          mirrorSed ⟨S, customPad S.depth⟩ := by
        unfold mirrorSed
        rw [← customPad_mirror]
        rfl
      rw [hpad]
      refine same_try (sedParcels_mirror (k := k) hP hs (padOk_init hd))
        (fun x => match x with
          | .error e => .error e
          | .ok (st, logs, s2) => .ok (st.S, logs, s2))
        (fun x => match x with
          | .error e => .error e
          | .ok (st, logs, s2) => .ok (st.S, logs, s2)) (fun _ => rfl) ?_ ?_ ?_
      · intro t
        unfold parcelsFrom
        simp only
      · intro t
        unfold parcelsFrom
        simp only
      · rintro F G ⟨st3, logs, logs', rfl, rfl⟩
        exact .done (.inr ⟨st3.S, logs, logs', rfl, rfl⟩)
  have hsafe := same_safe key (by
    intro t e h
    obtain ⟨S', l, s', h', -⟩ := C71_sediment_parcels tape_positive k hP hd t
    rw [h'] at h
    cases h)
  refine same_imp ?_ (same_reach hsafe)
  rintro F G ⟨⟨S', l, l', rfl, rfl⟩, t, ht⟩
  obtain ⟨S1, l1, s', h', h1⟩ := C71_sediment_parcels tape_positive k hP hd t
  have := ht []
  rw [List.append_nil, h'] at this
  cases this
  exact ⟨_, _, l', trivial, h1, rfl, rfl⟩

/-- Between the sand and the mud. -/
def mudOn (P : Params L W m K) : Except Err (State L W K × List (SedLog L W K) × List K) →
    Except Err (State L W K × List (SedLog L W K) × List (SedLog L W K) × List K)
  | .error e => .error e
  | .ok (S1, sand, s1) =>
    match routeParcels tape .mud P
      { S1 with
        eta := topoDiffusion P.cellType P.diffMult S1.qs P.Ncross S1.eta } s1 with
    | .error e => .error e
    | .ok (S2, mud, s2) => .ok (S2, sand, mud, s2)

/-- C80: the sediment routing of a timestep. -/
theorem C80_sediment_routing {P : Params L W m K} (hP : SedDomain P) {S : State L W K}
    (hd : ∀ c, 0 ≤ S.depth c) :
    SameChances (fun F G => ∃ S' : State L W K, ∃ sand mud sand' mud', F = (fun t => .ok (S', sand, mud, t)) ∧
        G = fun t => .ok (mirrorState S', sand', mud', t))
      (routeSediment tape P S) (routeSediment tape (mirrorParams P) (mirrorState S)) := by
  refine same_then (C80_sediment_parcels (k := .sand) hP (S := initSediment S) hd) (mudOn P)
    (mudOn (mirrorParams P)) ?_ ?_ ?_
  · intro t
    unfold routeSediment mudOn
    simp only
    rcases routeParcels tape .sand P (initSediment S) t with e | ⟨S1, sand, s1⟩
    · rfl
    · simp only
      rcases routeParcels tape .mud P
        { S1 with
          eta := topoDiffusion P.cellType P.diffMult S1.qs P.Ncross S1.eta } s1 with e | ⟨S2, mud, s2⟩ <;> rfl
  · intro t
    unfold routeSediment mudOn
    simp only
    have e1 : initSediment (mirrorState S) = mirrorState (initSediment S) := by
      unfold initSediment mirrorState
      rfl
    rw [e1]
    rcases routeParcels tape .sand (mirrorParams P) (mirrorState (initSediment S)) t with e | ⟨S1, sand, s1⟩
    · rfl
    · simp only
      rcases routeParcels tape .mud (mirrorParams P)
        { S1 with
          eta := topoDiffusion (mirrorParams P).cellType (mirrorParams P).diffMult S1.qs (mirrorParams P).Ncross
            S1.eta } s1 with e | ⟨S2, mud, s2⟩ <;> rfl
  · rintro F G ⟨S1, sand, sand', -, hd1, rfl, rfl⟩
    have e2 : ({ mirrorState S1 with
          eta := topoDiffusion (mirrorParams P).cellType (mirrorParams P).diffMult (mirrorState S1).qs
            (mirrorParams P).Ncross (mirrorState S1).eta } : State L W K) =
        mirrorState { S1 with eta := topoDiffusion P.cellType P.diffMult S1.qs P.Ncross S1.eta } := by
      have := C80_diffusion P.cellType P.diffMult S1.qs P.Ncross S1.eta
      change ({ mirrorState S1 with
          eta := topoDiffusion (mirror P.cellType) P.diffMult (mirror S1.qs) P.Ncross
            (mirror S1.eta) } : State L W K) = _
      rw [this]
      rfl
    refine same_then (C80_sediment_parcels (k := .mud) hP (S := { S1 with
        eta := topoDiffusion P.cellType P.diffMult S1.qs P.Ncross S1.eta }) hd1)
      (fun x => match x with
        | .error e => .error e
        | .ok (S2, mud, s2) => .ok (S2, sand, mud, s2))
      (fun x => match x with
        | .error e => .error e
        | .ok (S2, mud, s2) => .ok (S2, sand', mud, s2)) ?_ ?_ ?_
    · intro t
      unfold mudOn
      simp only
    · intro t
      unfold mudOn
      simp only [e2]
    · rintro F G ⟨S2, mud, mud', -, -, rfl, rfl⟩
      exact .done ⟨S2, sand, mud, sand', mud', rfl, rfl⟩

/-- Mirrored timesteps: the fields are mirrored at the start, after the water routing and after the
sediment routing. -/
def MirrorStep (l l' : StepLog L W K) : Prop :=
  l'.start = mirrorState l.start ∧ l'.watered = mirrorState l.watered ∧ l'.routed = mirrorState l.routed

/-- The end of a timestep. -/
def endStep (P : Params L W m K) (S S1 : State L W K) :
    Except Err (State L W K × List (SedLog L W K) × List (SedLog L W K) × List K) →
    Except Err (State L W K × StepLog L W K × List K)
  | .error e => .error e
  | .ok (S2, sand, mud, s2) =>
    let S3 := finalizeTimestep P S.eta (applySubsidence P S2)
    .ok ({ S3 with time := S3.time + P.dt, timeIter := S3.timeIter + 1 }, ⟨S, S1, S2, sand, mud⟩, s2)

/-- A timestep after the water routing. -/
def sedOn (P : Params L W m K) (S : State L W K) : Except Err (State L W K × List K) →
    Except Err (State L W K × StepLog L W K × List K)
  | .error e => .error e
  | .ok (S1, s1) => endStep P S S1 (routeSediment tape P S1 s1)

lemma timestep_on (P : Params L W m K) (S : State L W K) (t : List K) :
    timestep tape P S t = sedOn P S (routeWater tape P S t) := by
  unfold timestep
  rcases routeWater tape P S t with e | ⟨S1, s1⟩
  · rfl
  · unfold sedOn
    simp only
    rcases routeSediment tape P S1 s1 with e | ⟨S2, sand, mud, s2⟩ <;> rfl

/-- C80: a whole timestep. The random choices in a basin and in the mirrored basin can be matched, choice
by choice and with the same chances, so that after matching choices the fields are mirrored. -/
theorem C80_timestep {P : Params L W m K} (hM : MirrorSetup P) (hD : SedDomain P) (h0 : 0 ≤ P.h0)
    {S : State L W K} (hd : ∀ c, 0 ≤ S.depth c) (hn : 0 < S.ncols) :
    SameChances (MirrorEndLog MirrorStep) (timestep tape P S)
      (timestep tape (mirrorParams P) (mirrorState S)) := by
  have key : SameChances (fun F G => ∃ S' : State L W K, ∃ l l', MirrorStep l l' ∧
      F = (fun t => .ok (S', l, t)) ∧ G = fun t => .ok (mirrorState S', l', t)) (timestep tape P S)
      (timestep tape (mirrorParams P) (mirrorState S)) := by
    refine same_then (C80_water_routing hM hd hn) (sedOn P S) (sedOn (mirrorParams P) (mirrorState S))
      (timestep_on P S) (timestep_on _ _) ?_
    rintro F G ⟨S1, hd1, -, rfl, rfl⟩
    refine same_then (C80_sediment_routing hD hd1) (endStep P S S1)
      (endStep (mirrorParams P) (mirrorState S) (mirrorState S1)) (fun _ => rfl) (fun _ => rfl) ?_
    rintro F G ⟨S2, sand, mud, sand', mud', rfl, rfl⟩
    have hL2 : 2 ≤ L := by have := hD.hL; omega
    have hW2 : 2 ≤ W := by have := hM.water.hW; omega
    have he := C80_end hL2 hW2 P S.eta S2
    refine .done ⟨_, _, ⟨mirrorState S, mirrorState S1, mirrorState S2, sand', mud'⟩, ?_, rfl, ?_⟩
    · exact ⟨rfl, rfl, rfl⟩
    · funext t
      unfold endStep
      have e1 : (mirrorState S).eta = mirror S.eta := rfl
      simp only [e1, he]
      rfl
  refine same_imp ?_ (same_reach key)
  rintro F G ⟨⟨S', l, l', h1, rfl, rfl⟩, t, ht⟩
  exact ⟨S', l, l', h1, fun c => (C36_update h0 (ht []) c).2.1, rfl, rfl⟩

/-- A timestep before others. -/
def moreSteps (l : StepLog L W K) : Except Err (State L W K × List (StepLog L W K) × List K) →
    Except Err (State L W K × List (StepLog L W K) × List K)
  | .error e => .error e
  | .ok (S2, ls, s2) => .ok (S2, l :: ls, s2)

/-- The other timesteps after one. -/
def stepsOn (Ps : List (Params L W m K)) : Except Err (State L W K × StepLog L W K × List K) →
    Except Err (State L W K × List (StepLog L W K) × List K)
  | .error e => .error e
  | .ok (S1, l, s1) => moreSteps l (timesteps tape Ps S1 s1)

lemma timesteps_on (P : Params L W m K) (Ps : List (Params L W m K)) (S : State L W K) (t : List K) :
    timesteps tape (P :: Ps) S t = stepsOn Ps (timestep tape P S t) := by
  rw [timesteps]
  rcases timestep tape P S t with e | ⟨S1, l, s1⟩
  · rfl
  · unfold stepsOn
    simp only
    rcases timesteps tape Ps S1 s1 with e | ⟨S2, ls, s2⟩ <;> rfl

/-- C80: whole runs of any length; the settings may change between timesteps. The random choices of a run
and of a run of the mirrored basin can be matched, choice by choice and with the same chances, so that
after matching choices the fields are mirrored: at the start of every timestep, after its water routing,
after its sediment routing, and at the end of the run. -/
theorem C80_run : ∀ {Ps : List (Params L W m K)}, (∀ P ∈ Ps, MirrorSetup P ∧ SedDomain P ∧ 0 ≤ P.h0) →
    ∀ {S : State L W K}, (∀ c, 0 ≤ S.depth c) → 0 < S.ncols →
    SameChances (MirrorEndLog (List.Forall₂ MirrorStep)) (timesteps tape Ps S)
      (timesteps tape (Ps.map mirrorParams) (mirrorState S)) := by
  intro Ps
  induction Ps with
  | nil =>
    intro _ S hd _
    exact .done ⟨S, [], [], .nil, hd, rfl, rfl⟩
  | cons P Ps ih =>
    intro hPs S hd hn
    obtain ⟨hM, hD, h0⟩ := hPs P List.mem_cons_self
    refine same_then (same_reach (C80_timestep hM hD h0 hd hn)) (stepsOn Ps) (stepsOn (Ps.map mirrorParams))
      (timesteps_on P Ps S) (timesteps_on (mirrorParams P) (Ps.map mirrorParams) (mirrorState S)) ?_
    rintro F G ⟨⟨S1, l, l', h1, hd1, rfl, rfl⟩, t, ht⟩
    obtain ⟨S1', l1', s', e1, hn1⟩ := C71_update tape_positive hM.water hD hd hn t
    have := ht []
    rw [List.append_nil, e1] at this
    cases this
    refine same_then (ih (fun Q hQ => hPs Q (List.mem_cons_of_mem _ hQ)) hd1 hn1) (moreSteps l)
      (moreSteps l') (fun _ => rfl) (fun _ => rfl) ?_
    rintro F G ⟨S2, ls, ls', h2, hd2, rfl, rfl⟩
    exact .done ⟨S2, l :: ls, l' :: ls', .cons h1 h2, hd2, rfl, rfl⟩

lemma mirrorState_mirror (S : State L W K) : mirrorState (mirrorState S) = S := by
  have h1 : ∀ f : Grid L W K, mirror (mirror f) = f := by
    intro f; funext c; unfold mirror; rw [mirrorCell_mirror]
  have h2 : ∀ f : Grid L W K, mirrorAcross (mirrorAcross f) = f := by
    intro f; funext c; unfold mirrorAcross; rw [mirrorCell_mirror, neg_neg]
  unfold mirrorState
  simp only [h1, h2]

/-- What is left to do is to return a state as described by `Q`. -/
def EndsIn {α : Type*} (Q : State L W K → Prop) (F : List K → Except Err (State L W K × α × List K)) : Prop :=
  ∃ S' l, F = (fun t => .ok (S', l, t)) ∧ Q S'

/-- C80: the probabilities of runs. Whatever is said about the fields at the end of a run has the
probability that it has of the mirrored fields at the end of a run in the mirrored basin. -/
theorem C80_probability {Ps : List (Params L W m K)} (hPs : ∀ P ∈ Ps, MirrorSetup P ∧ SedDomain P ∧ 0 ≤ P.h0)
    {S : State L W K} (hd : ∀ c, 0 ≤ S.depth c) (hn : 0 < S.ncols) (Q : State L W K → Prop) :
    ∃ p, Probability (EndsIn Q) (EndsIn fun S => ¬ Q S) (timesteps tape Ps S) p ∧
      Probability (EndsIn fun S => Q (mirrorState S)) (EndsIn fun S => ¬ Q (mirrorState S))
        (timesteps tape (Ps.map mirrorParams) (mirrorState S)) p := by
  refine same_probability (C80_run hPs hd hn) ?_
  rintro F G ⟨S', ls, ls', -, -, rfl, rfl⟩
  by_cases hQ : Q S'
  · exact .inl ⟨⟨S', ls, rfl, hQ⟩, mirrorState S', ls', rfl, by simp only; rwa [mirrorState_mirror]⟩
  · exact .inr ⟨⟨S', ls, rfl, hQ⟩, mirrorState S', ls', rfl, by simp only; rwa [mirrorState_mirror]⟩

/-- C80: a basin that is its own mirror image has no preferred side: whatever is said about the fields at
the end of a run has the same probability as the same said about their mirror image. -/
theorem C80_no_side {Ps : List (Params L W m K)} (hPs : ∀ P ∈ Ps, MirrorSetup P ∧ SedDomain P ∧ 0 ≤ P.h0)
    (hP : ∀ P ∈ Ps, mirrorParams P = P) {S : State L W K} (hS : mirrorState S = S)
    (hd : ∀ c, 0 ≤ S.depth c) (hn : 0 < S.ncols) (Q : State L W K → Prop) :
    ∃ p, Probability (EndsIn Q) (EndsIn fun S => ¬ Q S) (timesteps tape Ps S) p ∧
      Probability (EndsIn fun S => Q (mirrorState S)) (EndsIn fun S => ¬ Q (mirrorState S))
        (timesteps tape Ps S) p := by
  have h1 := C80_probability hPs hd hn Q
  have hmap : Ps.map mirrorParams = Ps := by
    rw [List.map_congr_left hP]; exact List.map_id _
  rwa [hmap, hS] at h1

-- the example domain meets the conditions, and is its own mirror image
lemma exMirrorSetup : MirrorSetup exParams where
  water := exSetup
  first := by intro c h; change exType c ≠ -1; revert c; decide
  sign := fun x y => by change |x| + |(-y)| = |x| + |y|; rw [abs_neg]

lemma exMirrorSelf : mirrorParams exParams = exParams := by
  unfold mirrorParams
  have h1 : mirror exParams.cellType = exParams.cellType := by
    funext c; change exType (mirrorCell c) = exType c; revert c; decide
  have h2 : (fun k : Fin 1 => (exParams.inlet k.rev).rev) = exParams.inlet := by
    funext k; change (1 : Fin 3).rev = 1; decide
  rw [h1, h2]
  rfl

-- the bed is higher on the left as often as on the right
example : ∃ p, Probability (EndsIn fun S => S.eta (2, 0) > S.eta (2, 2)) (EndsIn fun S => ¬ S.eta (2, 0) > S.eta (2, 2))
      (timesteps tape (List.replicate 10 exParams) exState) p ∧
    Probability (EndsIn fun S => S.eta (2, 2) > S.eta (2, 0)) (EndsIn fun S => ¬ S.eta (2, 2) > S.eta (2, 0))
      (timesteps tape (List.replicate 10 exParams) exState) p := by
  refine C80_no_side ?_ ?_ ?_ ?_ ?_ (fun S => S.eta (2, 0) > S.eta (2, 2))
  · intro P hP
    rw [List.eq_of_mem_replicate hP]
    exact ⟨exMirrorSetup, exSedDomain, by norm_num [exParams]⟩
  · intro P hP
    rw [List.eq_of_mem_replicate hP]
    exact exMirrorSelf
  · unfold mirrorState mirror mirrorAcross
    have h : ∀ c : Cell 4 3, ((mirrorCell c).2.val = 1) ↔ c.2.val = 1 := by decide
    simp [exState, h]
  · exact fun c => by norm_num [exState]
  · norm_num [exState]

end Verif.Props
