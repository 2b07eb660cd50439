import Verif.Props.SedWalk

/-!
# When and how much parcels deposit and erode (C73)
-/

set_option linter.unusedSectionVars false
set_option linter.unusedSimpArgs false

namespace Verif.Props

open Verif.Model Verif.Lemmas Verif.Spec

variable {K : Type*} [Field K] [LinearOrder K] [IsStrictOrderedRing K] [FloorRing K] {σ : Type*}
  {L W m : ℕ} [NeZero L] [NeZero W]

/-- Consecutive steps of a parcel. -/
lemma sedLoop_chain {g : Rng K σ} {k : Sed} {P : Params L W m K}
    (R : SedRec L W K → SedRec L W K → Prop)
    (hR : ∀ st px py res s st1 res1 a s1 st2 res2 b s2,
      sedStep g k P st px py res s = .ok (st1, res1, a, s1) →
      sedStep g k P st1 a.new.1 a.new.2 res1 s1 = .ok (st2, res2, b, s2) → R a b) :
    ∀ n st px py res s st' res' rs s',
      sedLoop g k P n st px py res s = .ok (st', res', rs, s') →
      List.IsChain R rs ∧ ∃ r st1 res1 s1, rs.head? = some r ∧
        sedStep g k P st px py res s = .ok (st1, res1, r, s1) := by
  intro n
  induction n with
  | zero => intro st px py res s st' res' rs s' h; simp [sedLoop] at h
  | succ n ih =>
    intro st px py res s st' res' rs s' h
    unfold sedLoop at h
    generalize hs : sedStep g k P st px py res s = x at h
    cases x with
    | error e => simp at h
    | ok x =>
      obtain ⟨st1, res1, r, s1⟩ := x
      simp only at h
      split_ifs at h with hc
      · simp only [Except.ok.injEq, Prod.mk.injEq] at h
        obtain ⟨rfl, rfl, rfl, rfl⟩ := h
        exact ⟨by simp, r, st1, res1, s1, rfl, rfl⟩
      · generalize hl : sedLoop g k P n st1 r.new.1 r.new.2 res1 s1 = y at h
        cases y with
        | error e => simp at h
        | ok y =>
          obtain ⟨st2, res2, rs2, s2⟩ := y
          simp only [Except.ok.injEq, Prod.mk.injEq] at h
          obtain ⟨rfl, rfl, rfl, rfl⟩ := h
          obtain ⟨a1, b, stb, resb, sb, a2, a3⟩ := ih _ _ _ _ _ _ _ _ _ hl
          refine ⟨?_, r, st1, res1, s1, rfl, rfl⟩
          cases rs2 with
          | nil => simp at a2
          | cons b' bs =>
            simp only [List.head?_cons, Option.some.injEq] at a2
            subst a2
            rw [List.isChain_cons_cons]
            exact ⟨hR _ _ _ _ _ _ _ _ _ _ _ _ _ hs a3, a1⟩

/-- The water volume above the cell that a step enters, divided by four. -/
def quarter (P : Params L W m K) (r : SedRec L W K) : K :=
  |r.before.stage r.cell - r.before.eta r.cell| / 4 * P.dx ^ 2

/-- The volume that the bed of the entered cell gains. -/
def gain (P : Params L W m K) (r : SedRec L W K) : K :=
  (r.after.eta r.cell - r.before.eta r.cell) * P.dx ^ 2

lemma gain_eq {P : Params L W m K} (hdx : P.dx ≠ 0) {r : SedRec L W K} (h : StepEffect P r) :
    gain P r = r.change := by
  unfold gain
  rw [h.bed, Function.update_self]
  field_simp
  ring

/-- Sand: a cell that carries more than its capacity takes sand from the parcel (if the bed is under
water), a cell below capacity with fast water loses sand, and otherwise nothing happens. The
capacity grows with the power `beta` of the speed. -/
structure SandRule (P : Params L W m K) (r : SedRec L W K) : Prop where
  deposit : P.qs0 * P.fCap * (P.pwBeta (r.before.uw r.cell) / P.pwBeta P.u0) <
      r.before.qs r.cell → gain P r =
    if r.before.eta r.cell ≤ r.before.stage r.cell then min r.res (quarter P r) else 0
  erode : r.before.qs r.cell <
      P.qs0 * P.fCap * (P.pwBeta (r.before.uw r.cell) / P.pwBeta P.u0) →
    P.UeroSand < r.before.uw r.cell → gain P r = -min (P.modErosion r.cell * P.VpSed *
      (P.pwBeta (r.before.uw r.cell) / P.pwBeta P.UeroSand - 1)) (quarter P r)
  slow : r.before.qs r.cell ≤
      P.qs0 * P.fCap * (P.pwBeta (r.before.uw r.cell) / P.pwBeta P.u0) →
    r.before.uw r.cell ≤ P.UeroSand → gain P r = 0
  full : r.before.qs r.cell =
      P.qs0 * P.fCap * (P.pwBeta (r.before.uw r.cell) / P.pwBeta P.u0) → gain P r = 0

/-- Mud: slow water lets mud settle, fast water erodes, and between the two speeds nothing happens. -/
structure MudRule (P : Params L W m K) (r : SedRec L W K) : Prop where
  deposit : r.before.uw r.cell < P.UdepMud → r.before.uw r.cell ≤ P.UeroMud → gain P r =
    if r.before.eta r.cell ≤ r.before.stage r.cell then
      min (P.lam * r.res * (1 - P.pwBeta (r.before.uw r.cell) / P.pwBeta P.UdepMud)) (quarter P r)
    else 0
  erode : P.UeroMud < r.before.uw r.cell → gain P r = -min (P.modErosion r.cell * P.VpSed *
      (P.pwBeta (r.before.uw r.cell) / P.pwBeta P.UeroMud - 1)) (quarter P r)
  between : P.UdepMud ≤ r.before.uw r.cell → r.before.uw r.cell ≤ P.UeroMud → gain P r = 0

lemma limit_dep (Vp stage eta dx : K) : limitChange Vp stage eta dx false =
    if eta ≤ stage then min Vp (|stage - eta| / 4 * dx ^ 2) else 0 := by
  unfold limitChange
  simp only
  by_cases h : eta ≤ stage
  · rw [if_neg (by linarith), if_pos h, abs_of_nonneg (by linarith), sq]
  · rw [if_pos (by linarith), if_neg h]
    simp

lemma limit_ero (Vp stage eta dx : K) : limitChange Vp stage eta dx true =
    min Vp (|stage - eta| / 4 * dx ^ 2) := by
  unfold limitChange
  simp only
  by_cases h : stage - eta < 0
  · rw [if_pos h, sq]; simp
  · rw [if_neg h, abs_of_nonneg (not_lt.1 h), sq]

lemma ero_eq {pw : K → K} {Vp U Ue mo : K} (h : pw Ue ≠ 0) :
    eroVolume pw Vp U Ue mo = mo * Vp * (pw U / pw Ue - 1) := by
  unfold eroVolume
  field_simp

lemma sand_rule {g : Rng K σ} {P : Params L W m K} (hP : SedSetup P) {st st1 : SedSt L W K}
    {px py : ℤ} {res res1 : K} {s s1 : σ} {r : SedRec L W K}
    (h : sedStep g .sand P st px py res s = .ok (st1, res1, r, s1)) : SandRule P r := by
  have he := stepEffect h
  obtain ⟨-, -, hres, -, hch⟩ := before_eq h
  have hg := gain_eq hP.dx.ne' he
  have hcap : P.qs0 * P.fCap / P.pwBeta P.u0 * P.pwBeta (r.before.uw r.cell) =
      P.qs0 * P.fCap * (P.pwBeta (r.before.uw r.cell) / P.pwBeta P.u0) := by ring
  unfold volumeChange sandChange at hch
  simp only [hcap] at hch
  generalize hQ : P.qs0 * P.fCap * (P.pwBeta (r.before.uw r.cell) / P.pwBeta P.u0) = Q at hch
  constructor <;> rw [hQ]
  · intro h1
    rw [hg, hch, if_pos h1, limit_dep, hres]
    rfl
  · intro h1 h2
    rw [hg, hch, if_neg (not_lt.2 h1.le), if_pos ⟨h2, h1⟩, limit_ero,
      ero_eq (hP.pwPos _ hP.eroSand).ne', mul_neg_one]
    rfl
  · intro h1 h2
    rw [hg, hch, if_neg (not_lt.2 h1), if_neg (fun x => absurd x.1 (not_lt.2 h2))]
  · intro h1
    rw [hg, hch, if_neg (by rw [h1]; exact lt_irrefl _),
      if_neg (fun x => absurd x.2 (by rw [h1]; exact lt_irrefl _))]

lemma mud_rule {g : Rng K σ} {P : Params L W m K} (hP : SedSetup P) {st st1 : SedSt L W K}
    {px py : ℤ} {res res1 : K} {s s1 : σ} {r : SedRec L W K}
    (h : sedStep g .mud P st px py res s = .ok (st1, res1, r, s1)) : MudRule P r := by
  have he := stepEffect h
  obtain ⟨-, -, hres, -, hch⟩ := before_eq h
  have hg := gain_eq hP.dx.ne' he
  have hU := (hP.pwPos _ hP.depMud).ne'
  unfold volumeChange mudChange at hch
  simp only at hch
  constructor
  · intro h1 h2
    rw [hg, hch, if_neg (not_lt.2 h2), if_pos h1, limit_dep, hres]
    have : P.lam * res * (P.pwBeta P.UdepMud - P.pwBeta (r.before.uw r.cell)) / P.pwBeta P.UdepMud =
      P.lam * res * (1 - P.pwBeta (r.before.uw r.cell) / P.pwBeta P.UdepMud) := by field_simp
    rw [this]
    rfl
  · intro h1
    rw [hg, hch, if_pos h1, limit_ero, ero_eq (hP.pwPos _ hP.eroMud).ne', mul_neg_one]
    rfl
  · intro h1 h2
    rw [hg, hch, if_neg (not_lt.2 h2), if_neg (not_lt.2 h1)]

/-- C73: sand steps follow the rule for sand. -/
theorem C73_sand {g : Rng K σ} {P : Params L W m K} (hP : SedSetup P) {S S' : State L W K} {s s' : σ}
    {logs : List (SedLog L W K)} (h : routeParcels g .sand P S s = .ok (S', logs, s')) :
    ∀ l ∈ logs, ∀ r ∈ l.steps, SandRule P r :=
  (routeParcels_inv (g := g) (k := .sand) (P := P) (fun _ => True) (SandRule P)
    (by intros; trivial) (fun _ _ _ _ _ _ _ _ _ _ hs => ⟨trivial, sand_rule hP hs⟩) h trivial).2

/-- C73: mud steps follow the rule for mud. -/
theorem C73_mud {g : Rng K σ} {P : Params L W m K} (hP : SedSetup P) {S S' : State L W K} {s s' : σ}
    {logs : List (SedLog L W K)} (h : routeParcels g .mud P S s = .ok (S', logs, s')) :
    ∀ l ∈ logs, ∀ r ∈ l.steps, MudRule P r :=
  (routeParcels_inv (g := g) (k := .mud) (P := P) (fun _ => True) (MudRule P)
    (by intros; trivial) (fun _ _ _ _ _ _ _ _ _ _ hs => ⟨trivial, mud_rule hP hs⟩) h trivial).2

/-- C73: the fields that a step acts on are those that the step before left; for sand, with the flux
of the parcel itself added first. -/
theorem C73_consecutive {g : Rng K σ} {k : Sed} {P : Params L W m K} (hs2 : 0 < P.s2)
    {S S' : State L W K} {s s' : σ} {logs : List (SedLog L W K)}
    (h : routeParcels g k P S s = .ok (S', logs, s')) :
    ∀ l ∈ logs, List.IsChain (fun a b => b.before = { a.after with qs := b.before.qs } ∧
      ∀ c, b.before.qs c = a.after.qs c + if k = .sand then stepFlux P b c else 0) l.steps := by
  refine routeParcels_each (fun l => List.IsChain (fun a b =>
      b.before = { a.after with qs := b.before.qs } ∧
      ∀ c, b.before.qs c = a.after.qs c + if k = .sand then stepFlux P b c else 0) l.steps) ?_ h
  intro st py c s st' res rs s' hc hl
  refine (sedLoop_chain _ ?_ _ _ _ _ _ _ _ _ _ _ hl).1
  intro st px py res s st1 res1 a s1 st2 res2 b s2 ha hb
  obtain ⟨b1, b2, -, -, -⟩ := before_eq hb
  obtain ⟨-, a2, -, -, -⟩ := before_eq ha
  rw [a2] at b1
  refine ⟨b1, fun c => ?_⟩
  have he := (stepEffect hb).sandFlux
  rw [← he, ← b2, ← a2]
  cases k with
  | sand => rw [if_pos rfl]; exact step_flux hs2 hb c
  | mud =>
    rw [if_neg (by simp), add_zero, b2, he]
    obtain ⟨c0, d, c', cp, w, -, -, -, -, -, -, -, -, -, -, -, -, hbb, -⟩ := sedStep_ok hb
    rw [hbb]
    rfl

-- the example routings of `SedWalk` meet the hypotheses
example : ∃ S' logs s', routeParcels constRng .sand exParams exState () = .ok (S', logs, s') ∧
    ∀ l ∈ logs, ∀ r ∈ l.steps, SandRule exParams r := by
  obtain ⟨S', logs, s', h, -⟩ := C71_sediment_parcels exPositive .sand exSedDomain (S := exState)
    (fun _ => by norm_num [exState]) ()
  exact ⟨S', logs, s', h, C73_sand exSedSetup h⟩

example : ∃ S' logs s', routeParcels constRng .mud exParams exState () = .ok (S', logs, s') ∧
    ∀ l ∈ logs, ∀ r ∈ l.steps, MudRule exParams r := by
  obtain ⟨S', logs, s', h, -⟩ := C71_sediment_parcels exPositive .mud exSedDomain (S := exState)
    (fun _ => by norm_num [exState]) ()
  exact ⟨S', logs, s', h, C73_mud exSedSetup h⟩

end Verif.Props
