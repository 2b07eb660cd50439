import Verif.Model.Assign
import Verif.Props.Setters

/-!
# C84: assigning parameters of a running model
-/

set_option linter.unusedSectionVars false
set_option linter.unusedSimpArgs false

namespace Verif.Props

open Verif.Model Verif.Lemmas Verif.Spec

variable {K : Type*} [Field K] [LinearOrder K] [IsStrictOrderedRing K] [FloorRing K] {σ : Type*}
  {L W m : ℕ}

/-! ## What is accepted -/

/-- A length or a width that a cell of the present size fits into. -/
def Fits (I : Input K) : Assign K → Prop
  | .Length x | .Width x => I.dx ≤ x
  | _ => True

lemma accepted_set {I : Input K} (hI : Accepted I) (a : Assign K) (hh : 0 ≤ I.h0 ∨ a ≠ .actThick none)
    (hf : Fits I a) : badAssign I a = false ↔ Accepted (setInput I a) := by
  constructor
  · intro h
    obtain ⟨q1, q2, q3, q4, q5, q6, q7, q8, q9, q10, q11, q12, q13, q14, q15⟩ := hI
    cases a <;> simp only [badAssign, Bool.or_eq_false_iff, decide_eq_false_iff_not, not_lt, not_le] at h <;>
      first
      | exact ⟨h, q2, q3, hf, q5, q6, q7, q8, q9, q10, q11, q12, q13, q14, q15⟩
      | exact ⟨q1, h, q3, q4, hf, q6, q7, q8, q9, q10, q11, q12, q13, q14, q15⟩
      | exact ⟨q1, q2, h.1.1, h.1.2, h.2, q6, q7, q8, q9, q10, q11, q12, q13, q14, q15⟩
      | exact ⟨q1, q2, q3, q4, q5, q6, q7, q8, q9, q10, q11, q12, q13, q14, q15⟩
      | exact ⟨q1, q2, q3, q4, q5, h, q7, q8, q9, q10, q11, q12, q13, q14, q15⟩
      | exact ⟨q1, q2, q3, q4, q5, q6, h, q8, q9, q10, q11, q12, q13, q14, q15⟩
      | exact ⟨q1, q2, q3, q4, q5, q6, q7, h, q9, q10, q11, q12, q13, q14, q15⟩
      | exact ⟨q1, q2, q3, q4, q5, q6, q7, q8, h, q10, q11, q12, q13, q14, q15⟩
      | exact ⟨q1, q2, q3, q4, q5, q6, q7, q8, q9, h, q11, q12, q13, q14, q15⟩
      | exact ⟨q1, q2, q3, q4, q5, q6, q7, q8, q9, q10, h.1, h.2, q13, q14, q15⟩
      | exact ⟨q1, q2, q3, q4, q5, q6, q7, q8, q9, q10, q11, q12, q13, h, q15⟩
      | exact ⟨q1, q2, q3, q4, q5, q6, q7, q8, q9, q10, q11, q12, q13, q14, h⟩
      | skip
    rename_i x
    refine ⟨q1, q2, q3, q4, q5, q6, q7, q8, q9, q10, q11, q12, ?_, q14, q15⟩
    intro t ht
    cases x with
    | none =>
      simp only [setInput, Option.getD_none, Option.some.injEq] at ht
      rcases hh with hh | hh
      · rw [← ht]; exact div_nonneg hh (by norm_num)
      · exact absurd rfl hh
    | some y =>
      simp only [setInput, Option.getD_some, Option.some.injEq] at ht
      simpa [badThick, ← ht] using h
  · rintro ⟨q1, q2, q3, q4, q5, q6, q7, q8, q9, q10, q11, q12, q13, q14, q15⟩
    cases a <;> simp only [setInput] at * <;>
      simp only [badAssign, Bool.or_eq_false_iff, decide_eq_false_iff_not, not_lt, not_le] <;>
      first | assumption | exact ⟨q11, q12⟩ | exact ⟨⟨q3, q4⟩, q5⟩ | skip
    rename_i x
    cases x with
    | none => rfl
    | some y => simpa [badThick] using q13 y rfl

/-- C84: a value is accepted exactly if it would be in a configuration (without a value for the thickness of the
active layer: if the depth of the inlet is not negative, as a configuration always is accepted then; length and width
of the domain: if not less than the cell size, see `C84_small_domain`), and afterwards
the parameters have their previous values but for the one assigned. -/
theorem C84_accept {O : Oracle K} {X : Obj L W m K} (a : Assign K) (hI : validate X.I = .ok ())
    (hh : 0 ≤ X.I.h0 ∨ a ≠ .actThick none) (hf : Fits X.I a) :
    ((∃ X', objAssign O X a = .ok X') ↔ validate (setInput X.I a) = .ok ()) ∧
    ∀ X', objAssign O X a = .ok X' → X'.I = setInput X.I a ∧ X'.R = X.R ∧
      (a ≠ .HSL X'.S.HSL → X'.S = X.S) := by
  rw [C50_validate] at hI ⊢
  rw [← accepted_set hI a hh hf]
  unfold objAssign
  constructor
  · cases badAssign X.I a <;> simp
  · intro X' h
    split_ifs at h
    simp only [Except.ok.injEq] at h
    subst h
    refine ⟨rfl, rfl, fun hn => ?_⟩
    cases a <;> first | rfl | exact absurd rfl hn

/-- C84 fails for the length and the width of the domain: a length (width) less than the cell size is accepted in a
running model, while a configuration with it is not. The cell size, in contrast, is checked against both. -/
theorem C84_small_domain {O : Oracle K} {X : Obj L W m K} {x : K} (hI : validate X.I = .ok ()) (h0 : 0 < x)
    (hx : x < X.I.dx) : (∃ X', objAssign O X (.Length x) = .ok X') ∧ (∃ X', objAssign O X (.Width x) = .ok X') ∧
      validate { X.I with Length := x } = .error (.invalid "dx") ∧
      validate { X.I with Width := x } = .error (.invalid "dx") := by
  rw [C50_validate] at hI
  obtain ⟨q1, q2, q3, q4, q5, -⟩ := hI
  refine ⟨⟨{ X with I := { X.I with Length := x } }, ?_⟩, ⟨{ X with I := { X.I with Width := x } }, ?_⟩, ?_, ?_⟩
  · simp [objAssign, badAssign, not_le.2 h0, setInput, paramsAfter, stateAfter]
  · simp [objAssign, badAssign, not_le.2 h0, setInput, paramsAfter, stateAfter]
  · simp [validate, reject, not_le.2 h0, not_le.2 q2, hx, bind, Except.bind]
  · simp [validate, reject, not_le.2 h0, not_le.2 q1, hx, bind, Except.bind]

/-! ## Sessions -/

section
variable [NeZero L] [NeZero W]

lemma deeds_append {O : Oracle K} {g : Rng K σ} : ∀ (as bs : List (Deed K)) (X : Obj L W m K) (s : σ),
    deeds O g (as ++ bs) X s = match deeds O g as X s with
      | .error e => .error e
      | .ok (X1, s1) => deeds O g bs X1 s1
  | [], bs, X, s => rfl
  | a :: as, bs, X, s => by
    simp only [List.cons_append, deeds]
    cases deed O g X s a with
    | error e => rfl
    | ok r => exact deeds_append as bs r.1 r.2

lemma deeds_cons {O : Oracle K} {g : Rng K σ} {a : Deed K} {as : List (Deed K)} {X X' : Obj L W m K} {s s' : σ}
    (h : deeds O g (a :: as) X s = .ok (X', s')) :
    ∃ X1 s1, deed O g X s a = .ok (X1, s1) ∧ deeds O g as X1 s1 = .ok (X', s') := by
  simp only [deeds] at h
  generalize deed O g X s a = x at h ⊢
  cases x with
  | error e => cases h
  | ok r => exact ⟨r.1, r.2, rfl, h⟩

lemma deeds_split {O : Oracle K} {g : Rng K σ} {as bs : List (Deed K)} {X X' : Obj L W m K} {s s' : σ}
    (h : deeds O g (as ++ bs) X s = .ok (X', s')) :
    ∃ X1 s1, deeds O g as X s = .ok (X1, s1) ∧ deeds O g bs X1 s1 = .ok (X', s') := by
  rw [deeds_append] at h
  generalize deeds O g as X s = x at h ⊢
  cases x with
  | error e => cases h
  | ok r => exact ⟨r.1, r.2, rfl, h⟩

lemma deed_assign {O : Oracle K} {g : Rng K σ} {a : Assign K} {X X' : Obj L W m K} {s s' : σ}
    (h : deed O g X s (.assign a) = .ok (X', s')) :
    badAssign X.I a = false ∧ s' = s ∧
      X' = { X with I := setInput X.I a, P := paramsAfter O X.P a, S := stateAfter X.S a } := by
  simp only [deed, objAssign] at h
  cases hb : badAssign X.I a with
  | true => simp [hb] at h
  | false =>
    simp only [hb, Bool.false_eq_true, if_false, Except.ok.injEq, Prod.mk.injEq] at h
    exact ⟨rfl, h.2.symm, h.1.symm⟩

lemma deed_createBc {O : Oracle K} {g : Rng K σ} {X X' : Obj L W m K} {s s' : σ}
    (h : deed O g X s .createBc = .ok (X', s')) :
    ∃ D, boundaryConditions X.I L W = .ok D ∧ s' = s ∧ X' = { X with P := afterBc X.P X.I D } := by
  simp only [deed] at h
  generalize boundaryConditions X.I L W = x at h ⊢
  cases x with
  | error e => cases h
  | ok D =>
    simp only [Except.ok.injEq, Prod.mk.injEq] at h
    exact ⟨D, rfl, h.2.symm, h.1.symm⟩

lemma deed_initRouters {O : Oracle K} {g : Rng K σ} {X X' : Obj L W m K} {s s' : σ}
    (h : deed O g X s .initRouters = .ok (X', s')) : s' = s ∧ X' = { X with R := X.P } := by
  simp only [deed, Except.ok.injEq, Prod.mk.injEq] at h
  exact ⟨h.2.symm, h.1.symm⟩

lemma deed_update {O : Oracle K} {g : Rng K σ} {X X' : Obj L W m K} {s s' : σ}
    (h : deed O g X s .update = .ok (X', s')) :
    ∃ S1 l, timestep2 g X.P X.R X.S s = .ok (S1, l, s') ∧ X' = { X with S := S1 } := by
  simp only [deed, objUpdate] at h
  generalize timestep2 g X.P X.R X.S s = x at h ⊢
  cases x with
  | error e => split_ifs at h
  | ok r =>
    obtain ⟨S1, l, s1⟩ := r
    simp only at h
    split_ifs at h
    simp only [Except.ok.injEq, Prod.mk.injEq] at h
    exact ⟨S1, l, by rw [h.2], h.1.symm⟩

/-- The assignments in a session. -/
def assignments : List (Deed K) → List (Assign K)
  | [] => []
  | .assign a :: as => a :: assignments as
  | _ :: as => assignments as

/-- C84: after any session the parameters have the values assigned, one assignment after the other, whatever was done
in between. -/
theorem C84_read {O : Oracle K} {g : Rng K σ} : ∀ {as : List (Deed K)} {X X' : Obj L W m K} {s s' : σ},
    deeds O g as X s = .ok (X', s') → X'.I = (assignments as).foldl setInput X.I
  | [], X, X', s, s', h => by cases h; rfl
  | a :: as, X, X', s, s', h => by
    obtain ⟨X1, s1, h1, h2⟩ := deeds_cons h
    have ih := C84_read h2
    cases a with
    | assign a => rw [ih, (deed_assign h1).2.2]; rfl
    | createBc =>
      obtain ⟨D, -, -, e⟩ := deed_createBc h1
      rw [ih, e]; rfl
    | initRouters => rw [ih, (deed_initRouters h1).2]; rfl
    | update =>
      obtain ⟨S1, l, -, e⟩ := deed_update h1
      rw [ih, e]; rfl

/-! ## Updates go on as those of a newly created model -/

omit [NeZero L] [NeZero W] in
lemma sedParams_self (P : Params L W m K) : sedParams P P = P := rfl

/-- With routers made from the present values the two ways of updating agree. -/
lemma timestep2_eq {g : Rng K σ} {P R : Params L W m K} (h : sedParams P R = P) (S : State L W K) (s : σ) :
    timestep2 g P R S s = timestep g P S s := by
  have : ∀ S s, routeSediment2 g P R S s = routeSediment g P S s := by
    intro S s
    unfold routeSediment2 routeSediment
    rw [h]
    cases routeParcels g .sand P (initSediment S) s with
    | error e => rfl
    | ok r =>
      simp only
      cases routeParcels g .mud P _ r.2.2 <;> rfl
  unfold timestep2 timestep
  cases routeWater g P S s with
  | error e => rfl
  | ok r =>
    simp only [this]
    cases routeSediment g P r.1 r.2 <;> rfl

/-- The object works with the parameters of a model newly created with its present values, has routers made with
them, and has what it needs to update. -/
structure AsNew (O : Oracle K) (X : Obj L W m K) : Prop where
  made : ∃ S0, create O X.I = .ok ⟨L, W, m, X.P, S0⟩
  routers : sedParams X.P X.R = X.P
  rows : X.P.NpWater = X.rows
  sigma : X.P.toggleSub = true → X.hasSigma = true
  thick : ∃ t, X.I.actThick = some t

/-- C84: then an update does what it does for the newly created model if its fields are replaced by the present ones. -/
theorem C84_update {O : Oracle K} {g : Rng K σ} {X : Obj L W m K} (h : AsNew O X) (s : σ) :
    ∃ (P : Params L W m K) (S0 : State L W K), create O X.I = .ok ⟨L, W, m, P, S0⟩ ∧
      deed O g X s .update = match timestep g P X.S s with
        | .error e => .error (.step e)
        | .ok (S1, _, s1) => .ok ({ X with S := S1 }, s1) := by
  obtain ⟨S0, h0⟩ := h.made
  refine ⟨X.P, S0, h0, ?_⟩
  simp only [deed, objUpdate]
  rw [if_neg (fun hc => hc.2 h.rows), timestep2_eq h.routers]
  have : ¬ (X.P.toggleSub = true ∧ X.hasSigma = false ∧ X.P.startSub ≤ X.S.time) := by
    rintro ⟨h1, h2, -⟩
    rw [h.sigma h1] at h2
    cases h2
  generalize timestep g X.P X.S s = x
  cases x with
  | error e => rfl
  | ok r =>
    obtain ⟨S1, l, s1⟩ := r
    simp only [if_neg this]
end

/-- `initialParams` with the grid, the inlet and the middle column apart. -/
def madeParams (ct : Grid L W ℤ) (inlet : Fin m → Fin W) (C : ℤ) (O : Oracle K) (I : Input K) (D : Derived K) :
    Params L W m K :=
  { initialParams C ct O I D with inlet := inlet, cellType := ct }

lemma create_made {O : Oracle K} {I : Input K} {P : Params L W m K} {S : State L W K}
    (h : create O I = .ok ⟨L, W, m, P, S⟩) : ∃ D, boundaryConditions I L W = .ok D ∧ 0 ≤ D.sizeInd ∧
      P = madeParams P.cellType P.inlet P.CTR O I D := by
  obtain ⟨-, -, s3, s4⟩ := create_size h
  obtain ⟨hA, D, hD, hs, e⟩ := create_ok h
  simp only at s3 s4
  refine ⟨D, by rw [s3, s4]; exact hD, hs, ?_⟩
  cases e
  rfl

lemma create_change {O : Oracle K} {I I' : Input K} {P : Params L W m K} {S : State L W K} {D D' : Derived K}
    (h : create O I = .ok ⟨L, W, m, P, S⟩) (hD : boundaryConditions I L W = .ok D)
    (e1 : I'.Length = I.Length) (e2 : I'.Width = I.Width) (e3 : I'.dx = I.dx) (hA : Accepted I')
    (hD' : boundaryConditions I' L W = .ok D') (e4 : D'.L0 = D.L0) (e5 : D'.N0 = D.N0) (hs : 0 ≤ D'.sizeInd) :
    ∃ S', create O I' = .ok ⟨L, W, m, madeParams P.cellType P.inlet P.CTR O I' D', S'⟩ := by
  obtain ⟨-, -, s3, s4⟩ := create_size h
  obtain ⟨-, D0, hD0, -, e⟩ := create_ok h
  simp only at s3 s4
  have hDD : D0 = D := by
    rw [s3, s4, hD0] at hD
    cases hD; rfl
  subst hDD
  rw [s3, s4] at hD'
  unfold create
  rw [(C50_validate I').2 hA]
  simp only
  rw [e1, e2, e3, hD']
  simp only
  rw [if_neg (by omega), e4, e5]
  cases e
  exact ⟨_, rfl⟩

/-- Assignments that need nothing else to be done: rate of sea level rise, sea level, thickness of the active layer,
smoothing, relaxation, start of the subsidence, composition of the bed outside the domain. -/
def Direct : Assign K → Prop
  | .SLR _ | .HSL _ | .actThick (some _) | .Csmooth _ | .startSub _ | .omegaSfc _ | .omegaFlow _ | .Nsmooth _
  | .sandFracBc _ => True
  | _ => False

/-- Assignments after which boundary conditions and routers have to be made again: slope, iterations, number of
sediment parcels, bed load fraction, exponent of the transport capacity, sedimentation lag, strength of the diffusion,
number of steps of a parcel;
without subsidence also concentration and depth of the inlet. -/
def Rebind (I : Input K) : Assign K → Prop
  | .S0 _ | .itermax _ | .NpSed _ | .fBedload _ | .beta _ | .sedLag _ | .alpha _ | .stepmax _ => True
  | .C0pct _ | .h0 _ => I.toggleSub = false
  | _ => False

section
variable [NeZero L] [NeZero W]

lemma asNew_direct {O : Oracle K} {g : Rng K σ} {X X' : Obj L W m K} {s s' : σ} {a : Assign K} (hX : AsNew O X)
    (ha : Direct a) (h : deed O g X s (.assign a) = .ok (X', s')) : AsNew O X' := by
  obtain ⟨hb, -, e⟩ := deed_assign h
  obtain ⟨S0, h0⟩ := hX.made
  obtain ⟨D, hD, hs, hP⟩ := create_made h0
  have hA := (accepted_set (create_ok h0).1 a (.inr (by rintro rfl; exact ha.elim))
    (by cases a <;> first | trivial | exact ha.elim)).1 hb
  have key : ∃ S', create O (setInput X.I a) =
      .ok ⟨L, W, m, madeParams X.P.cellType X.P.inlet X.P.CTR O (setInput X.I a) D, S'⟩ :=
    create_change h0 hD (by cases a <;> first | rfl | exact ha.elim) (by cases a <;> first | rfl | exact ha.elim)
      (by cases a <;> first | rfl | exact ha.elim) hA
      (by cases a <;> first | exact hD | exact ha.elim) rfl rfl hs
  obtain ⟨S', hk⟩ := key
  have hpar : paramsAfter O X.P a = madeParams X.P.cellType X.P.inlet X.P.CTR O (setInput X.I a) D := by
    conv_lhs => rw [hP]
    cases a <;> first | rfl | exact ha.elim | (rename_i x; cases x <;> first | rfl | exact ha.elim)
  subst e
  refine ⟨⟨S', ?_⟩, ?_, ?_, ?_, ?_⟩
  · simp only [hpar]; exact hk
  · have := hX.routers
    obtain ⟨I, P, R, S, rows, sg⟩ := X
    simp only at *
    cases a <;> first | exact ha.elim | skip
    all_goals
      conv_rhs => rw [← this]
      conv_lhs => rw [← this]
      rfl
  · cases a <;> first | exact hX.rows | exact ha.elim
  · cases a <;> first | exact hX.sigma | exact ha.elim
  · cases a <;> first | exact hX.thick | exact ha.elim | exact ⟨_, rfl⟩

lemma asNew_update {O : Oracle K} {g : Rng K σ} {X X' : Obj L W m K} {s s' : σ} (hX : AsNew O X)
    (h : deed O g X s .update = .ok (X', s')) : AsNew O X' := by
  obtain ⟨S1, l, -, e⟩ := deed_update h
  subst e
  exact ⟨hX.made, hX.routers, hX.rows, hX.sigma, hX.thick⟩

lemma asNew_rebind {O : Oracle K} {g : Rng K σ} {X X' : Obj L W m K} {s s' : σ} {a : Assign K} (hX : AsNew O X)
    (ha : Rebind X.I a)
    (h : deeds O g [.assign a, .createBc, .initRouters] X s = .ok (X', s')) : AsNew O X' := by
  obtain ⟨X1, s1, h1, h⟩ := deeds_cons h
  obtain ⟨X2, s2, h2, h⟩ := deeds_cons h
  obtain ⟨X3, s3, h3, h⟩ := deeds_cons h
  cases h
  obtain ⟨hb, -, e1⟩ := deed_assign h1
  obtain ⟨D', hD', -, e2⟩ := deed_createBc h2
  obtain ⟨-, e3⟩ := deed_initRouters h3
  obtain ⟨S0, h0⟩ := hX.made
  obtain ⟨D, hD, hs, hP⟩ := create_made h0
  have hA := (accepted_set (create_ok h0).1 a (.inr (by rintro rfl; exact ha.elim))
    (by cases a <;> first | trivial | exact ha.elim)).1 hb
  subst e1
  simp only at hD'
  have b := bc_ok hD
  have b' := bc_ok hD'
  have hsz : 0 ≤ D'.sizeInd := by
    by_cases hst : ∃ n, a = .stepmax n
    · obtain ⟨n, rfl⟩ := hst
      have e : D'.stepmax = (n : ℤ) := by
        rw [b'.estepSome (n : K) rfl]
        simp [truncInt]
      rw [b'.esize, e]
      exact Int.tdiv_nonneg (by omega) (by omega)
    · have est : D'.stepmax = D.stepmax := by
        have e : (setInput X.I a).stepmax = X.I.stepmax := by
          cases a <;> first | rfl | exact absurd ⟨_, rfl⟩ hst
        cases hst : X.I.stepmax with
        | none => rw [b.estepNone hst, b'.estepNone (e.trans hst)]
        | some x => rw [b.estepSome x hst, b'.estepSome x (e.trans hst)]
      rw [b'.esize, est, ← b.esize]; exact hs
  have eL : D'.L0 = D.L0 := by rw [b.eL0, b'.eL0]; cases a <;> first | rfl | exact ha.elim
  have eN : D'.N0 = D.N0 := by rw [b.eN0, b'.eN0]; cases a <;> first | rfl | exact ha.elim
  have key := create_change h0 hD (by cases a <;> first | rfl | exact ha.elim) (by cases a <;> first | rfl | exact ha.elim)
      (by cases a <;> first | rfl | exact ha.elim) hA
      hD' eL eN hsz
  obtain ⟨S', hk⟩ := key
  have hpar : afterBc (paramsAfter O X.P a) (setInput X.I a) D' =
      madeParams X.P.cellType X.P.inlet X.P.CTR O (setInput X.I a) D' := by
    have hact : resolveActThick (setInput X.I a) = resolveActThick X.I := by
      obtain ⟨t, ht⟩ := hX.thick
      cases a <;> first | exact ha.elim | simp only [resolveActThick, setInput, ht]
    have hdt : X.I.toggleSub = true → D'.dt = D.dt := by
      intro ht
      rw [b.edt, b'.edt, b.edVs, b'.edVs, b.eQs0, b'.eQs0, b.eV0, b'.eV0, b.eQw0, b'.eQw0, b.eC0, b'.eC0, eN]
      cases a <;> first | rfl | exact ha.elim | (rw [show X.I.toggleSub = false from ha] at ht; cases ht)
    have hsig : initialSigma L W (setInput X.I a) D' = initialSigma L W X.I D := by
      have e1 : (setInput X.I a).toggleSub = X.I.toggleSub := by cases a <;> first | rfl | exact ha.elim
      have e2 : (setInput X.I a).subRate = X.I.subRate := by cases a <;> first | rfl | exact ha.elim
      unfold initialSigma
      rw [e1, e2]
      cases ht : X.I.toggleSub with
      | false => rfl
      | true => simp only [if_true, eL, hdt ht]
    have e : madeParams X.P.cellType X.P.inlet X.P.CTR O (setInput X.I a) D' =
        { madeParams X.P.cellType X.P.inlet X.P.CTR O (setInput X.I a) D' with
          sigma := initialSigma L W X.I D, actThick := resolveActThick X.I } := by
      rw [← hsig, ← hact]; rfl
    rw [e]
    conv_lhs => rw [hP]
    cases a <;> first | rfl | exact ha.elim
  subst e2
  subst e3
  refine ⟨⟨S', ?_⟩, rfl, ?_, ?_, ?_⟩
  · simp only [hpar]; exact hk
  · cases a <;> first | exact hX.rows | exact ha.elim
  · cases a <;> first | exact hX.sigma | exact ha.elim
  · cases a <;> first | exact hX.thick | exact ha.elim

/-- What a user does who follows the documentation. -/
inductive Careful (K : Type*)
  /-- an assignment -/
  | now (a : Assign K)
  /-- an assignment, then `create_boundary_conditions` and `init_sediment_routers` -/
  | rebind (a : Assign K)
  | update

/-- The single deeds. -/
def Careful.deeds : Careful K → List (Deed K)
  | .now a => [.assign a]
  | .rebind a => [.assign a, .createBc, .initRouters]
  | .update => [.update]

/-- Assignments for which that is enough, in a model with the values `I`. -/
def Careful.Enough (I : Input K) : Careful K → Prop
  | .now a => Direct a
  | .rebind a => Rebind I a
  | .update => True

omit [NeZero L] [NeZero W] in
/-- A new object is one. -/
theorem C84_new {O : Oracle K} {I : Input K} {P : Params L W m K} {S : State L W K} (hh : 0 ≤ I.h0)
    (h : create O I = .ok ⟨L, W, m, P, S⟩) : AsNew O (newObj I P S) := by
  obtain ⟨D, hD, hs, hP⟩ := create_made h
  have hA := (create_ok h).1
  have hA' : Accepted { I with actThick := some (resolveActThick I) } := by
    obtain ⟨q1, q2, q3, q4, q5, q6, q7, q8, q9, q10, q11, q12, q13, q14, q15⟩ := hA
    refine ⟨q1, q2, q3, q4, q5, q6, q7, q8, q9, q10, q11, q12, ?_, q14, q15⟩
    intro t ht
    simp only [Option.some.injEq] at ht
    rw [← ht]
    unfold resolveActThick
    split
    · exact div_nonneg hh (by norm_num)
    · exact q13 _ (by assumption)
  obtain ⟨S', hk⟩ := create_change (I' := { I with actThick := some (resolveActThick I) }) h hD rfl rfl rfl hA' hD rfl
    rfl hs
  refine ⟨⟨S', ?_⟩, rfl, ?_, ?_, ⟨_, rfl⟩⟩
  · have e : P = madeParams P.cellType P.inlet P.CTR O { I with actThick := some (resolveActThick I) } D := hP
    show create O { I with actThick := some (resolveActThick I) } = .ok ⟨L, W, m, P, S'⟩
    rw [hk, ← e]
  · show P.NpWater = I.NpWater.toNat
    rw [hP]; rfl
  · show P.toggleSub = true → I.toggleSub = true
    rw [hP]; exact id

/-- C84: in any session of such assignments, each followed by what the documentation recommends, and updates, the
object always works with the parameters of a model newly created with the present values (`C84_update`).
Partial: C84 claims it for all parameters. It fails for the others, see `C84_cell_size`, `C84_unheard`, `C84_created_heard`,
`C84_water_parcels`, `C84_subsidence_on`, `C84_depth_alone`, and for what docs/source/examples show, see `C84_velocity_alone` and
`C84_bedload_alone`. -/
theorem C84_partial {O : Oracle K} {g : Rng K σ} : ∀ {bs : List (Careful K)} {X X' : Obj L W m K} {s s' : σ},
    AsNew O X → (∀ b ∈ bs, b.Enough X.I) → deeds O g (bs.flatMap Careful.deeds) X s = .ok (X', s') → AsNew O X'
  | [], X, X', s, s', hX, _, h => by cases h; exact hX
  | b :: bs, X, X', s, s', hX, hb, h => by
    rw [List.flatMap_cons] at h
    obtain ⟨X1, s1, h1, h2⟩ := deeds_split h
    have hb1 := hb b List.mem_cons_self
    have h3 : AsNew O X1 ∧ X1.I.toggleSub = X.I.toggleSub := by
      have hr := C84_read h1
      cases b with
      | now a =>
        obtain ⟨X2, s2, h3, h4⟩ := deeds_cons h1
        cases h4
        refine ⟨asNew_direct hX hb1 h3, ?_⟩
        rw [hr]
        cases a <;> first | rfl | exact hb1.elim
      | rebind a =>
        refine ⟨asNew_rebind hX hb1 h1, ?_⟩
        rw [hr]
        cases a <;> first | rfl | exact hb1.elim
      | update =>
        obtain ⟨X2, s2, h3, h4⟩ := deeds_cons h1
        cases h4
        exact ⟨asNew_update hX h3, by rw [hr]; rfl⟩
    refine C84_partial h3.1 (fun c hc => ?_) h2
    have := hb c (List.mem_cons_of_mem _ hc)
    cases c with
    | now a => exact this
    | update => trivial
    | rebind a =>
      cases a <;> first | exact this | exact h3.2.trans this

/-- C84: the named property of the velocity (`C56_*`) does the same as the assignment followed by both calls. -/
theorem C84_named {O : Oracle K} {g : Rng K σ} {M : Live L W m K} {x : K} (rows : ℕ) (sg : Bool) (s : σ) :
    deeds O g [.assign (.u0 x), .createBc, .initRouters] (⟨M.I, M.P, M.P, M.S, rows, sg⟩ : Obj L W m K) s =
      match write M (.velocity x) with
      | .error e => .error (.setup e)
      | .ok M' => .ok (⟨M'.I, M'.P, M'.P, M'.S, rows, sg⟩, s) := by
  simp only [deeds, deed, objAssign, badAssign, Bool.false_eq_true, if_false, write, rebound, setInput]
  generalize boundaryConditions { M.I with u0 := x } (L : ℤ) (W : ℤ) = y
  cases y <;> rfl

/-! ## What fails -/

omit [NeZero L] [NeZero W] in
/-- What the sediment parcels do not read of the parameters. -/
def stripSed (P : Params L W m K) : Params L W m K :=
  { P with
    modWater := fun _ => 0, sigma := fun _ => 0, L0 := 0, CTR := 0, NpWater := 0, itermax := 0, Nsmooth := 0,
    Ncross := 0, h0 := 0, S0 := 0, SLR := 0, qw0 := 0, QpWater := 0, gamma := 0, Csmooth := 0, omegaSfc := 0,
    omegaFlow := 0, omegaFlowIter := 0, diffMult := 0, actThick := 0, sandFracBc := 0, toggleSub := false,
    startSub := 0, nrm := fun _ _ => 0, pwWater := id }

lemma sedLoop_strip {g : Rng K σ} {k : Sed} {P : Params L W m K} :
    ∀ (n : ℕ) (st : SedSt L W K) (px py : ℤ) (res : K) (s : σ),
      sedLoop g k (stripSed P) n st px py res s = sedLoop g k P n st px py res s
  | 0, st, px, py, res, s => rfl
  | n + 1, st, px, py, res, s => by
    have e : sedStep g k (stripSed P) st px py res s = sedStep g k P st px py res s := rfl
    rw [sedLoop, sedLoop, e]
    cases sedStep g k P st px py res s with
    | error e => rfl
    | ok r =>
      simp only [sedLoop_strip n]
      rfl

lemma sedParcels_strip {g : Rng K σ} {k : Sed} {P : Params L W m K} :
    ∀ (pys : List ℤ) (st : SedSt L W K) (s : σ),
      sedParcels g k (stripSed P) pys st s = sedParcels g k P pys st s
  | [], st, s => rfl
  | py :: pys, st, s => by
    rw [sedParcels, sedParcels]
    cases pyCell L W 0 py with
    | none => rfl
    | some c =>
      simp only
      rw [sedLoop_strip]
      show (match sedLoop g k P P.stepmax (enterState k P st c) 0 py P.VpSed s with
        | .error e => _
        | .ok (st2, res, rs, s1) => _) = _
      cases sedLoop g k P P.stepmax (enterState k P st c) 0 py P.VpSed s with
      | error e => rfl
      | ok r => simp only [sedParcels_strip pys]

lemma routeParcels_strip {g : Rng K σ} {k : Sed} {P Q : Params L W m K} (h : stripSed P = stripSed Q)
    (S : State L W K) (s : σ) : routeParcels g k P S s = routeParcels g k Q S s := by
  have : ∀ P : Params L W m K, routeParcels g k (stripSed P) S s = routeParcels g k P S s := by
    intro P
    unfold routeParcels
    simp only [sedParcels_strip]
    rfl
  rw [← this P, h, this Q]

/-- C84 fails for the velocity of the inlet as changed in docs/source/examples/updating_boundary_conditions.rst and
variable_velocity.rst, by an assignment and `create_boundary_conditions`: the water enters with the new velocity, but
from any given flow the sediment parcels still enter, move, settle and erode as with the old one; they limit the speed
to twice the old velocity and the sand they can carry is the one of the old velocity. -/
theorem C84_velocity_alone {O : Oracle K} {g : Rng K σ} {X X' : Obj L W m K} {s s' : σ} {x : K} (hX : AsNew O X)
    (h : deeds O g [.assign (.u0 x), .createBc] X s = .ok (X', s')) :
    X'.P.qw0 = x * X.I.h0 ∧ X'.P.uMax = 2 * x ∧
    (∀ (k : Sed) (S : State L W K) (r : σ),
      routeParcels g k (sedParams X'.P X'.R) S r = routeParcels g k X.P S r) ∧
    (sedParams X'.P X'.R).uMax = 2 * X.I.u0 ∧ (sedParams X'.P X'.R).u0 = X.I.u0 ∧
    (sedParams X'.P X'.R).qs0 = X.I.u0 * X.I.h0 * (X.I.C0pct / 100) := by
  obtain ⟨X1, s1, h1, h⟩ := deeds_cons h
  obtain ⟨X2, s2, h2, h⟩ := deeds_cons h
  cases h
  obtain ⟨-, -, e1⟩ := deed_assign h1
  subst e1
  obtain ⟨D', hD', -, e2⟩ := deed_createBc h2
  subst e2
  have b' := bc_ok hD'
  obtain ⟨S0, h0⟩ := hX.made
  obtain ⟨D, hD, -, hP⟩ := create_made h0
  have b := bc_ok hD
  have hr := hX.routers
  have f1 : X.R.uMax = X.P.uMax := congrArg (fun Q => Q.uMax) hr
  have f2 : X.R.u0 = X.P.u0 := congrArg (fun Q => Q.u0) hr
  have f3 : X.R.qs0 = X.P.qs0 := congrArg (fun Q => Q.qs0) hr
  refine ⟨b'.eqw0, b'.euMax, fun k S r => ?_, ?_, ?_, ?_⟩
  · refine Eq.trans (routeParcels_strip (Q := sedParams X.P X.R) ?_ S r) (by rw [hr])
    rfl
  · show X.R.uMax = _
    rw [f1, hP]; exact b.euMax
  · show X.R.u0 = _
    rw [f2, hP]; rfl
  · show X.R.qs0 = _
    rw [f3, hP]
    show D.qs0 = _
    rw [b.eqs0, b.eqw0, b.eC0]; ring

/-- C84 fails for the bed load fraction as changed in docs/source/examples/variable_bedload.rst, by an assignment
alone: the numbers of sand and mud parcels follow, the capacity of the flow for sand does not. -/
theorem C84_bedload_alone {O : Oracle K} {g : Rng K σ} {X X' : Obj L W m K} {s s' : σ} {x : K} (hX : AsNew O X)
    (h : deed O g X s (.assign (.fBedload x)) = .ok (X', s')) :
    (sedParams X'.P X'.R).fBedload = x ∧ (sedParams X'.P X'.R).fCap = X.I.fBedload := by
  obtain ⟨-, -, e⟩ := deed_assign h
  subst e
  obtain ⟨S0, h0⟩ := hX.made
  obtain ⟨D, hD, -, hP⟩ := create_made h0
  refine ⟨rfl, ?_⟩
  show X.R.fCap = _
  rw [show X.R.fCap = X.P.fCap from congrArg (fun Q => Q.fCap) hX.routers, hP]
  rfl

/-- C84: without a value, the thickness of the active layer is half the present depth of the inlet, for an object with a
depth that is not negative: as if that was the value. -/
theorem C84_thickness {O : Oracle K} {g : Rng K σ} {X : Obj L W m K} (s : σ) (hX : AsNew O X) (hh : 0 ≤ X.I.h0) :
    deed O g X s (.assign (.actThick none)) = deed O g X s (.assign (.actThick (some (X.I.h0 / 2)))) := by
  obtain ⟨S0, h0⟩ := hX.made
  obtain ⟨D, hD, -, hP⟩ := create_made h0
  have e : X.P.h0 = X.I.h0 := by rw [hP]; rfl
  have hn : ¬ X.I.h0 / 2 < 0 := not_lt.2 (div_nonneg hh (by norm_num))
  simp [deed, objAssign, badAssign, badThick, setInput, paramsAfter, stateAfter, e, hn]

/-- C84 fails for the depth of the inlet if only assigned: at the end of the next update the inlet has the new depth, but
the water and the sediment of that update enter with the discharge of the old one. -/
theorem C84_depth_alone {O : Oracle K} {g : Rng K σ} {X X' : Obj L W m K} {s s' : σ} {x : K} (hX : AsNew O X)
    (h : deeds O g [.assign (.h0 x), .update] X s = .ok (X', s')) :
    (∀ c, (∃ p, c = ((0 : Fin L), X.P.inlet p)) → X'.S.depth c = x ∧ X'.S.stage c - X'.S.eta c = x) ∧
    X'.P.qw0 = X.I.u0 * X.I.h0 ∧ (sedParams X'.P X'.R).qs0 = X.I.u0 * X.I.h0 * (X.I.C0pct / 100) := by
  obtain ⟨X1, s1, h1, h⟩ := deeds_cons h
  obtain ⟨X2, s2, h2, h⟩ := deeds_cons h
  cases h
  obtain ⟨-, -, e1⟩ := deed_assign h1
  subst e1
  obtain ⟨S1, l, ht, e2⟩ := deed_update h2
  subst e2
  obtain ⟨S0, h0⟩ := hX.made
  obtain ⟨D, hD, -, hP⟩ := create_made h0
  have b := bc_ok hD
  have f3 : X.R.qs0 = X.P.qs0 := congrArg (fun Q => Q.qs0) hX.routers
  refine ⟨?_, ?_, ?_⟩
  · rintro c ⟨p, rfl⟩
    unfold timestep2 at ht
    split at ht
    · cases ht
    split at ht
    · cases ht
    simp only [Except.ok.injEq, Prod.mk.injEq] at ht
    obtain ⟨rfl, -⟩ := ht
    have hi : isInlet X.P.inlet ((0 : Fin L), X.P.inlet p) = true := by simp [isInlet]
    simp [finalizeTimestep, computeSandFrac, assign, paramsAfter, hi]
  · show X.P.qw0 = _
    rw [hP]; exact b.eqw0
  · show X.R.qs0 = _
    rw [f3, hP]
    show D.qs0 = _
    rw [b.eqs0, b.eqw0, b.eC0]; ring

/-- Assignments that no later method but `create_boundary_conditions` hears of. -/
def Unheard : Assign K → Prop
  | .L0m _ | .N0m _ | .hb _ | .C0pct _ | .sedLag _ | .alpha _ | .subRate _ | .coeffThetaSand _ | .coeffThetaMud _
  | .coeffUdepMud _ | .coeffUeroMud _ | .coeffUeroSand _ => True
  | _ => False

/-- Length and width of the domain. -/
def Extent : Assign K → Prop
  | .Length _ | .Width _ => True
  | _ => False

/-- Assignments that no later method hears of. -/
def Dead : Assign K → Prop
  | .hb _ | .subRate _ | .coeffThetaSand _ | .coeffThetaMud _
  | .coeffUdepMud _ | .coeffUeroMud _ | .coeffUeroSand _ => True
  | _ => False

/-- What can be seen of a session: the error, or fields, random numbers and what the next update works with. -/
def seen : Except ObjErr (Obj L W m K × σ) →
    Except ObjErr (State L W K × Params L W m K × Params L W m K × ℕ × Bool × σ)
  | .error e => .error e
  | .ok (X, s) => .ok (X.S, X.P, X.R, X.rows, X.hasSigma, s)

/-- What no later method reads of the values. -/
def stripDead (I : Input K) : Input K :=
  { I with
    Length := 0, Width := 0, hb := none, subRate := 0, coeffThetaSand := 0, coeffThetaMud := 0, coeffUdepMud := 0,
    coeffUeroMud := 0, coeffUeroSand := 0 }

/-- No assignment of a cell size. -/
def NoCell (c : Deed K) : Prop := ∀ x, c ≠ .assign (.dx x)

lemma seen_deed {O : Oracle K} {g : Rng K σ} {c : Deed K} {X : Obj L W m K} {J : Input K} {s : σ}
    (hJ : c = .createBc → stripDead X.I = stripDead J)
    (hc : NoCell c ∨ (X.I.Length = J.Length ∧ X.I.Width = J.Width)) :
    (∃ e, deed O g X s c = .error e ∧ deed O g { X with I := J } s c = .error e) ∨
    ∃ X1 J1 s1, deed O g X s c = .ok (X1, s1) ∧ deed O g { X with I := J } s c = .ok ({ X1 with I := J1 }, s1) ∧
      (stripDead X.I = stripDead J → stripDead X1.I = stripDead J1) ∧
      (X.I.Length = J.Length ∧ X.I.Width = J.Width → X1.I.Length = J1.Length ∧ X1.I.Width = J1.Width) := by
  cases c with
  | assign a =>
    simp only [deed, objAssign]
    have hba : badAssign J a = badAssign X.I a := by
      cases a <;> first | rfl | skip
      rename_i x
      rcases hc with hc | hc
      · exact absurd rfl (hc x)
      · simp only [badAssign, hc.1, hc.2]
    rw [hba]
    cases badAssign X.I a with
    | true => exact .inl ⟨_, rfl, rfl⟩
    | false =>
      refine .inr ⟨_, setInput J a, _, rfl, rfl, fun h => ?_, fun h => ?_⟩
      swap
      · cases a <;> first | exact h | exact ⟨rfl, h.2⟩ | exact ⟨h.1, rfl⟩
      have e : ∀ I : Input K, stripDead (setInput I a) = stripDead (setInput (stripDead I) a) := by
        intro I; cases a <;> rfl
      simp only
      rw [e, h, ← e]
  | createBc =>
    have hJ := hJ rfl
    have e1 : ∀ I : Input K, boundaryConditions I L W = boundaryConditions (stripDead I) L W := fun _ => rfl
    have e2 : ∀ (P : Params L W m K) (I : Input K) D, afterBc P I D = afterBc P (stripDead I) D := fun _ _ _ => rfl
    simp only [deed]
    rw [e1 X.I, e1 J, hJ]
    cases boundaryConditions (stripDead J) L W with
    | error e => exact .inl ⟨_, rfl, rfl⟩
    | ok D =>
      refine .inr ⟨{ X with P := afterBc X.P X.I D }, J, s, rfl, ?_, fun _ => hJ, fun h => h⟩
      simp only
      rw [e2 X.P J, e2 X.P X.I, hJ]
  | initRouters => exact .inr ⟨{ X with R := X.P }, J, s, rfl, rfl, fun h => h, fun h => h⟩
  | update =>
    simp only [deed, objUpdate]
    by_cases h1 : 0 < X.P.itermax ∧ X.P.NpWater ≠ X.rows
    · simp only [if_pos h1]
      exact .inl ⟨_, rfl, rfl⟩
    · simp only [if_neg h1]
      cases timestep2 g X.P X.R X.S s with
      | error e => exact .inl ⟨_, rfl, rfl⟩
      | ok r =>
        obtain ⟨S1, l, s1⟩ := r
        by_cases h2 : X.P.toggleSub = true ∧ X.hasSigma = false ∧ X.P.startSub ≤ X.S.time
        · simp only [if_pos h2]
          exact .inl ⟨_, rfl, rfl⟩
        · simp only [if_neg h2]
          exact .inr ⟨{ X with S := S1 }, J, s1, rfl, rfl, fun h => h, fun h => h⟩

lemma seen_deeds {O : Oracle K} {g : Rng K σ} : ∀ {as : List (Deed K)} {X : Obj L W m K} {J : Input K} {s : σ},
    .createBc ∉ as ∨ stripDead X.I = stripDead J →
    (∀ c ∈ as, NoCell c) ∨ (X.I.Length = J.Length ∧ X.I.Width = J.Width) →
    seen (deeds O g as { X with I := J } s) = seen (deeds O g as X s)
  | [], X, J, s, _, _ => rfl
  | a :: as, X, J, s, hJ, hc => by
    have ha : a = .createBc → stripDead X.I = stripDead J := by
      rintro rfl
      rcases hJ with h | h
      · exact absurd List.mem_cons_self h
      · exact h
    have hc' : NoCell a ∨ (X.I.Length = J.Length ∧ X.I.Width = J.Width) :=
      hc.imp (fun h => h a List.mem_cons_self) id
    rcases seen_deed (O := O) (g := g) (s := s) ha hc' with ⟨e, h1, h2⟩ | ⟨X1, J1, s1, h1, h2, h3, h4⟩
    · simp only [deeds, h1, h2]
    · simp only [deeds, h1, h2]
      refine seen_deeds ?_ (hc.imp (fun h c hc => h c (List.mem_cons_of_mem _ hc)) h4)
      rcases hJ with h | h
      · exact .inl fun hc => h (List.mem_cons_of_mem _ hc)
      · exact .inr (h3 h)

/-- C84 fails for length and width of the inlet, depth of the basin, concentration, sedimentation lag, diffusion,
rate of subsidence and the coefficients of velocities and exponents: whatever is done afterwards except
`create_boundary_conditions`, all is as without the assignment; for the depth of the basin, the rate of subsidence and
the coefficients even after that. It fails for length and width of the domain: whatever is done afterwards except assigning
a cell size, all is as without the assignment. -/
theorem C84_unheard {O : Oracle K} {g : Rng K σ} {X X' : Obj L W m K} {s s' : σ} {a : Assign K}
    (h : deed O g X s (.assign a) = .ok (X', s')) (as : List (Deed K))
    (ha : (Unheard a ∧ .createBc ∉ as) ∨ Dead a ∨ (Extent a ∧ ∀ c ∈ as, NoCell c)) :
    seen (deeds O g as X' s') = seen (deeds O g as X s) := by
  obtain ⟨-, rfl, e⟩ := deed_assign h
  have e' : X' = { X with I := setInput X.I a } := by
    rw [e]
    rcases ha with ha | ha
    · cases a <;> first | rfl | exact ha.1.elim
    rcases ha with ha | ha
    · cases a <;> first | rfl | exact ha.elim
    · cases a <;> first | rfl | exact ha.1.elim
  rw [e']
  refine seen_deeds ?_ ?_
  · rcases ha with ha | ha | ha
    · exact .inl ha.2
    · exact .inr (by cases a <;> first | rfl | exact ha.elim)
    · exact .inr (by cases a <;> first | rfl | exact ha.1.elim)
  · rcases ha with ha | ha | ha
    · exact .inr (by cases a <;> first | exact ⟨rfl, rfl⟩ | exact ha.1.elim)
    · exact .inr (by cases a <;> first | exact ⟨rfl, rfl⟩ | exact ha.elim)
    · exact .inl ha.2

/-- C84 fails for the cell size, even if boundary conditions and routers are made again: the domain keeps its cells,
while a model created with the same values has as many as fit its length and width. -/
theorem C84_cell_size {O : Oracle K} {g : Rng K σ} {X X' : Obj L W m K} {s s' : σ} {x : K} (hX : AsNew O X)
    (hF : Flowing X.I) (h : deeds O g [.assign (.dx x), .createBc, .initRouters] X s = .ok (X', s')) :
    X'.P.dx = x ∧ (sedParams X'.P X'.R).dx = x ∧
    (L : ℤ) = roundHalfEven (X.I.Length / X.I.dx) ∧ (W : ℤ) = roundHalfEven (X.I.Width / X.I.dx) ∧
    ∃ L' W' m', ∃ (P' : Params L' W' m' K) (S' : State L' W' K), create O X'.I = .ok ⟨L', W', m', P', S'⟩ ∧ P'.dx = x ∧
      (L' : ℤ) = roundHalfEven (X.I.Length / x) ∧ (W' : ℤ) = roundHalfEven (X.I.Width / x) := by
  obtain ⟨X1, s1, h1, h⟩ := deeds_cons h
  obtain ⟨X2, s2, h2, h⟩ := deeds_cons h
  obtain ⟨X3, s3, h3, h⟩ := deeds_cons h
  cases h
  obtain ⟨hb, -, e1⟩ := deed_assign h1
  subst e1
  obtain ⟨D', hD', -, e2⟩ := deed_createBc h2
  subst e2
  obtain ⟨-, e3⟩ := deed_initRouters h3
  subst e3
  obtain ⟨S0, h0⟩ := hX.made
  obtain ⟨D, hD, hs, -⟩ := create_made h0
  obtain ⟨-, -, z1, z2⟩ := create_size h0
  refine ⟨rfl, rfl, z1, z2, ?_⟩
  have hA := (accepted_set (create_ok h0).1 (.dx x) (.inr (by simp)) trivial).1 hb
  have hF' : Flowing (setInput X.I (.dx x)) := ⟨hF.u0, hF.h0, hF.C0, hF.itermax⟩
  obtain ⟨D1, hD1, -⟩ := C50_derived_partial hA hF' (cellsAlong X.I.Length x) (cellsAlong X.I.Width x)
  have b := bc_ok hD
  have b1 := bc_ok hD1
  have c1 := (C50_cells hA.dx hA.dxLength).1
  have c2 := (C50_cells hA.dx hA.dxWidth).1
  have hs1 : 0 ≤ D1.sizeInd := by
    rw [b1.esize]
    cases hst : X.I.stepmax with
    | none =>
      rw [b1.estepNone hst]
      refine Int.tdiv_nonneg ?_ (by omega)
      have c1 : 1 ≤ cellsAlong X.I.Length x := c1
      have c2 : 1 ≤ cellsAlong X.I.Width x := c2
      omega
    | some y =>
      rw [b.esize, b.estepSome y hst] at hs
      rw [b1.estepSome y hst]; exact hs
  have hD1' : boundaryConditions (setInput X.I (.dx x)) (cellsAlong (setInput X.I (.dx x)).Length
      (setInput X.I (.dx x)).dx) (cellsAlong (setInput X.I (.dx x)).Width (setInput X.I (.dx x)).dx) = .ok D1 := hD1
  have hk : ∃ M, create O (setInput X.I (.dx x)) = .ok M := by
    unfold create
    rw [(C50_validate _).2 hA]
    simp only
    rw [hD1']
    simp only
    rw [if_neg (by omega)]
    exact ⟨_, rfl⟩
  obtain ⟨⟨L', W', m', P', S'⟩, hk⟩ := hk
  obtain ⟨D2, -, -, hP2⟩ := create_made hk
  have hd : P'.dx = x := by rw [hP2]; rfl
  obtain ⟨-, -, z3, z4⟩ := create_size hk
  exact ⟨L', W', m', P', S', hk, hd, z3, z4⟩

/-- C84 fails for the cell size alone: the water parcels enter and spread over cells of the new size, while those of
the sediment deposit and erode on cells of the old one, and discharge, volumes and time step are those of the old
one. -/
theorem C84_cell_size_alone {O : Oracle K} {g : Rng K σ} {X X' : Obj L W m K} {s s' : σ} {x : K} (hX : AsNew O X)
    (h : deed O g X s (.assign (.dx x)) = .ok (X', s')) :
    X'.P.dx = x ∧ X'.P.QpWater = X.P.QpWater ∧ X'.P.dt = X.P.dt ∧
    ∀ (k : Sed) (S : State L W K) (r : σ), routeParcels g k (sedParams X'.P X'.R) S r = routeParcels g k X.P S r := by
  obtain ⟨-, -, e1⟩ := deed_assign h
  subst e1
  refine ⟨rfl, rfl, rfl, fun k S r => ?_⟩
  exact Eq.trans (routeParcels_strip (Q := sedParams X.P X.R) rfl S r) (by rw [hX.routers])

/-- C84 fails for the number of steps alone: water parcels stop after the new number, sediment parcels after the old
one. -/
theorem C84_steps_alone {O : Oracle K} {g : Rng K σ} {X X' : Obj L W m K} {s s' : σ} {n : ℕ} (hX : AsNew O X)
    (h : deed O g X s (.assign (.stepmax n)) = .ok (X', s')) :
    X'.P.stepmax = n ∧
    ∀ (k : Sed) (S : State L W K) (r : σ), routeParcels g k (sedParams X'.P X'.R) S r = routeParcels g k X.P S r := by
  obtain ⟨-, -, e1⟩ := deed_assign h
  subst e1
  refine ⟨rfl, fun k S r => ?_⟩
  exact Eq.trans (routeParcels_strip (Q := sedParams X.P X.R) rfl S r) (by rw [hX.routers])

omit [NeZero L] [NeZero W] in
/-- See `C84_unheard`: a model created with the value works with it. The thresholds of the parcels, the exponents of
their walks and the rate of subsidence are the ones of the values then. -/
theorem C84_created_heard {O : Oracle K} {I : Input K} {P : Params L W m K} {S : State L W K}
    (h : create O I = .ok ⟨L, W, m, P, S⟩) : P.UeroSand = I.coeffUeroSand * I.u0 ∧
      P.UeroMud = I.coeffUeroMud * I.u0 ∧ P.UdepMud = I.coeffUdepMud * I.u0 ∧ P.lam = I.sedLag ∧
      (∀ y, P.pwSed .sand y = O.pow y (I.coeffThetaSand * I.thetaWater)) ∧
      (∀ y, P.pwSed .mud y = O.pow y (I.coeffThetaMud * I.thetaWater)) ∧
      (I.toggleSub = true → ∀ c : Cell L W, P.L0 ≤ c.1.val → P.sigma c = I.subRate * P.dt) := by
  obtain ⟨D, hD, -, hP⟩ := create_made h
  have b := bc_ok hD
  have hL := (C50_inlet_size hD).1
  rw [hP]
  refine ⟨rfl, rfl, rfl, b.elam, fun _ => rfl, fun _ => rfl, fun ht c hc => ?_⟩
  show initialSigma L W I D c = I.subRate * D.dt
  have hc : D.L0 ≤ c.1.val := hc
  have : landRows L W D.L0 c = false := by
    simp only [landRows, inSlice, Bool.and_eq_false_iff, decide_eq_false_iff_not]
    right
    split_ifs <;> omega
  simp [initialSigma, ht, assign, this]

/-- C84 fails for the number of water parcels: with a number other than the one the object was made with (and other
than 1, which is outside of the model), the next update raises an error. -/
theorem C84_water_parcels {O : Oracle K} {g : Rng K σ} {X X' : Obj L W m K} {s s' : σ} {n : ℤ} (hX : AsNew O X)
    (_ : n ≠ 1) (hn : n.toNat ≠ X.P.NpWater) (h : deed O g X s (.assign (.NpWater n)) = .ok (X', s')) :
    deed O g X' s' .update = .error .shape := by
  obtain ⟨-, -, e⟩ := deed_assign h
  subst e
  obtain ⟨S0, h0⟩ := hX.made
  obtain ⟨D, hD, -, hP⟩ := create_made h0
  have b := bc_ok hD
  have hA := (create_ok h0).1
  have hi : 0 < X.P.itermax := by
    rw [hP]
    show 0 < X.I.itermax.toNat
    have := hA.itermax
    have := b.iter
    omega
  simp only [deed, objUpdate]
  rw [if_pos]
  exact ⟨hi, fun hc => hn (hc.trans hX.rows.symm)⟩

/-- C84 fails for subsidence: in an object made without, an update after subsidence was switched on and its start
reached never succeeds. -/
theorem C84_subsidence_on {O : Oracle K} {g : Rng K σ} {X X' : Obj L W m K} {s s' : σ} (hX : X.hasSigma = false)
    (ht : X.P.startSub ≤ X.S.time) (h : deed O g X s (.assign (.toggleSub true)) = .ok (X', s')) :
    ¬ ∃ r, deed O g X' s' .update = .ok r := by
  obtain ⟨-, -, e⟩ := deed_assign h
  subst e
  rintro ⟨r, hr⟩
  have hc : (paramsAfter O X.P (.toggleSub true)).toggleSub = true ∧ X.hasSigma = false ∧
      (paramsAfter O X.P (.toggleSub true)).startSub ≤ (stateAfter X.S (.toggleSub true)).time := ⟨rfl, hX, ht⟩
  simp only [deed, objUpdate, if_pos hc] at hr
  generalize timestep2 g (paramsAfter O X.P (.toggleSub true)) X.R (stateAfter X.S (.toggleSub true)) s' = y at hr
  cases y <;> split_ifs at hr

/-- C84 fails for the velocity and for the exponent of the water even if boundary conditions and routers are made
again: velocities at which sediment settles or erodes remain those of the old velocity, and the sediment parcels keep
the exponents of the old exponent. -/
theorem C84_velocity_thresholds {O : Oracle K} {g : Rng K σ} {X X' : Obj L W m K} {s s' : σ} {x : K} (hX : AsNew O X)
    (a : Assign K) (ha : a = .u0 x ∨ a = .thetaWater x)
    (h : deeds O g [.assign a, .createBc, .initRouters] X s = .ok (X', s')) :
    (sedParams X'.P X'.R).UeroSand = X.I.coeffUeroSand * X.I.u0 ∧
    (sedParams X'.P X'.R).UeroMud = X.I.coeffUeroMud * X.I.u0 ∧
    (sedParams X'.P X'.R).UdepMud = X.I.coeffUdepMud * X.I.u0 ∧
    (∀ y, (sedParams X'.P X'.R).pwSed .sand y = O.pow y (X.I.coeffThetaSand * X.I.thetaWater)) ∧
    (∀ y, (sedParams X'.P X'.R).pwSed .mud y = O.pow y (X.I.coeffThetaMud * X.I.thetaWater)) := by
  obtain ⟨X1, s1, h1, h⟩ := deeds_cons h
  obtain ⟨X2, s2, h2, h⟩ := deeds_cons h
  obtain ⟨X3, s3, h3, h⟩ := deeds_cons h
  cases h
  obtain ⟨-, -, e1⟩ := deed_assign h1
  subst e1
  obtain ⟨D', hD', -, e2⟩ := deed_createBc h2
  subst e2
  obtain ⟨-, e3⟩ := deed_initRouters h3
  subst e3
  obtain ⟨S0, h0⟩ := hX.made
  obtain ⟨p1, p2, p3, -, p5, p6, -⟩ := C84_created_heard h0
  rcases ha with rfl | rfl <;> exact ⟨p1, p2, p3, p5, p6⟩

/-- The default model: an update, a new sea level, and a new strength of the diffusion. -/
example {g : Rng ℚ σ} (hg : PositiveDraws g) (s : σ) :
    ∃ (L W m : ℕ) (_ : NeZero L) (_ : NeZero W) (X : Obj L W m ℚ), AsNew exOracle X ∧
      ∃ X' s', deeds exOracle g ([.update, .now (.HSL 1), .rebind (.alpha (1 / 5))].flatMap Careful.deeds) X s =
        .ok (X', s') ∧ AsNew exOracle X' ∧ X'.I.alpha = 1 / 5 := by
  obtain ⟨L, W, m, iL, iW, M, hM, e1, hs⟩ := C56_session exOracleOk exRunnable hg
  obtain ⟨M', s', h, -⟩ := (hs [.update] s (by simp)).1
  have hc := hM.1
  rw [e1] at hc
  have hX := C84_new (by norm_num [exInput]) hc
  refine ⟨L, W, m, iL, iW, newObj exInput M.P M.S, hX, ?_⟩
  have hu : ∃ S1 l s1, timestep g M.P M.S s = .ok (S1, l, s1) := by
    simp only [session] at h
    generalize hx : act g M s .update = x at h
    cases x with
    | error e => cases h
    | ok r =>
      obtain ⟨S1, l, h3, -⟩ := act_update hx
      exact ⟨S1, l, _, h3⟩
  obtain ⟨S1, l, s1, h1⟩ := hu
  have h2 : deed exOracle g (newObj exInput M.P M.S) s .update =
      .ok ({ newObj exInput M.P M.S with S := S1 }, s1) := by
    obtain ⟨P, S0, h3, h4⟩ := C84_update (g := g) hX s
    obtain ⟨S0', h5⟩ := hX.made
    rw [h5] at h3
    cases h3
    rw [h4]
    have h6 : timestep g (newObj exInput M.P M.S).P (newObj exInput M.P M.S).S s = .ok (S1, l, s1) := h1
    rw [h6]
  have hA : Accepted { exInput with actThick := some (resolveActThick exInput), HSL := 1, alpha := 1 / 5 } :=
    (C50_validate _).1 (by decide +kernel)
  obtain ⟨D, hD, -⟩ := C50_derived_partial hA ⟨by norm_num [exInput], by norm_num [exInput], by norm_num [exInput],
    by norm_num [exInput]⟩ L W
  have hrun : ∃ X' s', deeds exOracle g
      ([.update, .now (.HSL 1), .rebind (.alpha (1 / 5))].flatMap Careful.deeds) (newObj exInput M.P M.S) s =
        .ok (X', s') := by
    simp only [List.flatMap_cons, List.flatMap_nil, Careful.deeds, List.append_nil, List.cons_append, List.nil_append]
    rw [deeds, h2]
    simp only [deeds, deed, objAssign, badAssign, Bool.false_eq_true, if_false, newObj, setInput]
    rw [hD]
    exact ⟨_, _, rfl⟩
  obtain ⟨X', s2, hr⟩ := hrun
  refine ⟨X', s2, hr, C84_partial hX ?_ hr, ?_⟩
  · intro b hb
    simp only [List.mem_cons, List.not_mem_nil, or_false] at hb
    rcases hb with rfl | rfl | rfl <;> exact trivial
  · rw [C84_read hr]; rfl

/-- The default model with cells of twice the size, and boundary conditions and routers made again: still 100 rows, of
100 m each, where a model created with this cell size has 50. -/
example {g : Rng ℚ σ} (hg : PositiveDraws g) (s : σ) :
    ∃ (L W m : ℕ) (_ : NeZero L) (_ : NeZero W) (X : Obj L W m ℚ), AsNew exOracle X ∧ L = 100 ∧
      ∃ X' s', deeds exOracle g [.assign (.dx 100), .createBc, .initRouters] X s = .ok (X', s') ∧ X'.P.dx = 100 ∧
        ∃ L' W' m', ∃ (P' : Params L' W' m' ℚ) (S' : State L' W' ℚ),
          create exOracle X'.I = .ok ⟨L', W', m', P', S'⟩ ∧ L' = 50 := by
  obtain ⟨L, W, m, iL, iW, M, hM, e1, -⟩ := C56_session (σ := σ) exOracleOk exRunnable hg
  have hc := hM.1
  rw [e1] at hc
  have hX := C84_new (by norm_num [exInput]) hc
  have hF : Flowing (newObj exInput M.P M.S).I :=
    ⟨by norm_num [newObj, exInput], by norm_num [newObj, exInput], by norm_num [newObj, exInput],
      by norm_num [newObj, exInput]⟩
  have hA : Accepted (setInput (newObj exInput M.P M.S).I (.dx 100)) :=
    (C50_validate { exInput with actThick := some (resolveActThick exInput), dx := 100 }).1 (by decide +kernel)
  obtain ⟨D, hD, -⟩ := C50_derived_partial hA ⟨by norm_num [setInput, newObj, exInput],
    by norm_num [setInput, newObj, exInput], by norm_num [setInput, newObj, exInput],
    by norm_num [setInput, newObj, exInput]⟩ L W
  have hb : badAssign (newObj exInput M.P M.S).I (.dx 100) = false :=
    show badAssign { exInput with actThick := some (resolveActThick exInput) } (.dx 100) = false by decide +kernel
  have hr : ∃ X' s', deeds exOracle g [.assign (.dx 100), .createBc, .initRouters] (newObj exInput M.P M.S) s =
      .ok (X', s') := by
    simp only [deeds, deed, objAssign, hb, Bool.false_eq_true, if_false]
    rw [hD]
    exact ⟨_, _, rfl⟩
  obtain ⟨X', s', hr⟩ := hr
  obtain ⟨d1, -, z1, -, L', W', m', P', S', hk, -, z2, -⟩ := C84_cell_size hX hF hr
  refine ⟨L, W, m, iL, iW, newObj exInput M.P M.S, hX, ?_, X', s', hr, d1, L', W', m', P', S', hk, ?_⟩
  · have : roundHalfEven ((newObj exInput M.P M.S).I.Length / (newObj exInput M.P M.S).I.dx) = 100 :=
      show roundHalfEven ((5000 : ℚ) / 50) = 100 by decide +kernel
    omega
  · have : roundHalfEven ((newObj exInput M.P M.S).I.Length / (100 : ℚ)) = 50 :=
      show roundHalfEven ((5000 : ℚ) / 100) = 50 by decide +kernel
    omega

end

end Verif.Props
