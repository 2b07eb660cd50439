import Verif.Model.Jobs
import Verif.Props.TimeScale
import Verif.Props.Ensemble
import Mathlib.Algebra.Order.Floor.Ring
import Mathlib.Algebra.Order.Archimedean.Basic
import Mathlib.Data.Rat.Cast.CharZero

/-!
# C61: the length of a run, C63: serial jobs
-/

set_option linter.unusedSectionVars false
set_option linter.unusedSimpArgs false

namespace Verif.Props

open Verif.Model Verif.Lemmas Verif.Spec

variable {K : Type*} [Field K] [LinearOrder K] [IsStrictOrderedRing K] {In M G : Type*}

/-! ## The end time -/

/-- Specification: the number a value stands for; `true` counts as 1, `false` as 0. -/
inductive IsNum : Yaml → ℚ → Prop
  | int (i : ℤ) : IsNum (.scalar (.int i)) i
  | float (q : ℚ) : IsNum (.scalar (.float q)) q
  | yes : IsNum (.scalar (.bool true)) 1
  | no : IsNum (.scalar (.bool false)) 0

lemma numOf_iff {v : Yaml} {q : ℚ} : numOf v = some q ↔ IsNum v q := by
  constructor
  · intro h
    match v, h with
    | .scalar (.int i), h => cases h; exact .int i
    | .scalar (.float i), h => cases h; exact .float _
    | .scalar (.bool true), h => cases h; exact .yes
    | .scalar (.bool false), h => cases h; exact .no
  · intro h
    cases h <;> rfl

/-- Specification: the intermittency a job uses. -/
def UsesIf (parse : String → Option ℚ) (get : String → Option Yaml) (q : ℚ) : Prop :=
  (get "If" = none ∧ q = 1) ∨ (∃ v, get "If" = some v ∧ IsNum v q) ∨
    ∃ t, get "If" = some (.scalar (.str t)) ∧ parse t = some q

/-- Specification: a number given for a key. -/
def Given (get : String → Option Yaml) (k : String) (q : ℚ) : Prop :=
  ∃ v, get k = some v ∧ IsNum v q

/-- Specification: the time to run. Number of timesteps before seconds before years; seconds and years
are real time, of which the fraction `If` is model time. -/
def RunTime (get : String → Option Yaml) (If dt x : K) : Prop :=
  (∃ q, Given get "timesteps" q ∧ x = q * dt) ∨
  (get "timesteps" = none ∧ ∃ q, Given get "time" q ∧ x = If * q) ∨
  (get "timesteps" = none ∧ get "time" = none ∧
    ∃ q, Given get "time_years" q ∧ x = If * (q * ((365 + 1 / 4) * (24 * 60 * 60))))

lemma jobIf_ok {parse : String → Option ℚ} {cfg : Dict Yaml} {q : ℚ} :
    jobIf parse cfg = .ok q ↔ UsesIf parse (dget cfg) q := by
  unfold jobIf UsesIf
  simp only [← numOf_iff]
  cases h : dget cfg "If" with
  | none => simp [eq_comm]
  | some v =>
    match v with
    | .scalar (.str s) =>
      cases hp : parse s with
      | none => simp [floatOf, numOf, hp]
      | some x => simp [floatOf, numOf, hp]
    | .scalar (.int i) => simp [floatOf, numOf]
    | .scalar (.float i) => simp [floatOf, numOf]
    | .scalar (.bool i) => simp [floatOf, numOf]
    | .scalar .null => simp [floatOf, numOf]
    | .scalar .other => simp [floatOf, numOf]
    | .list l => simp [floatOf, numOf]
    | .dict l => simp [floatOf, numOf]

lemma timesNum_ok {v : Yaml} {y x : K} : timesNum v y = .ok x ↔ ∃ q : ℚ, numOf v = some q ∧ x = q * y := by
  unfold timesNum
  cases numOf v with
  | none => simp
  | some q => simp [eq_comm]

/-- C61: the run time is accepted exactly as specified. -/
theorem C61_duration (parse : String → Option ℚ) (cfg : Dict Yaml) (dt x : K) :
    duration parse cfg dt = .ok x ↔
      ∃ q : ℚ, UsesIf parse (dget cfg) q ∧ RunTime (dget cfg) (q : K) dt x := by
  unfold duration
  cases hI : jobIf parse cfg with
  | error e =>
    constructor
    · intro h; cases h
    · rintro ⟨q, hq, -⟩
      rw [jobIf_ok.2 hq] at hI; cases hI
  | ok q =>
    have hq : ∀ q', UsesIf parse (dget cfg) q' ↔ q' = q := by
      intro q'
      rw [← jobIf_ok, hI]
      simp [eq_comm]
    have : (∃ q' : ℚ, UsesIf parse (dget cfg) q' ∧ RunTime (dget cfg) (q' : K) dt x) ↔
        RunTime (dget cfg) (q : K) dt x := by
      constructor
      · rintro ⟨q', h1, h2⟩
        rw [(hq q').1 h1] at h2; exact h2
      · exact fun h => ⟨q, (hq q).2 rfl, h⟩
    rw [this]
    unfold RunTime Given
    simp only [← numOf_iff]
    cases h1 : dget cfg "timesteps" with
    | some v => simp only [timesNum_ok]; simp
    | none =>
      cases h2 : dget cfg "time" with
      | some v => simp only [timesNum_ok]; simp [mul_comm]
      | none =>
        cases h3 : dget cfg "time_years" with
        | none => simp
        | some v =>
          simp only [timesNum_ok]
          have : ∀ r : ℚ, (r : K) * ((q : K) * 86400 * (1461 / 4)) =
              (q : K) * (r * ((365 + 1 / 4) * (24 * 60 * 60))) := by
            intro r; ring
          simp [this]

/-- C61: without a run time the job is refused. -/
theorem C61_none {parse : String → Option ℚ} {cfg : Dict Yaml} {q : ℚ}
    (hI : UsesIf parse (dget cfg) q) (h1 : dget cfg "timesteps" = none) (h2 : dget cfg "time" = none)
    (h3 : dget cfg "time_years" = none) (dt : K) :
    ∃ msg, duration parse cfg dt = .error ⟨.valueError, msg⟩ := by
  unfold duration
  rw [jobIf_ok.2 hI]
  simp only [h1, h2, h3]
  exact ⟨_, rfl⟩

/-- C61: a job that is made ends the run time after the time its model starts with. -/
theorem C61_end {E : Engine K In M G} {parse : String → Option ℚ} {i : ℕ} {inp : In} {cfg : Dict Yaml}
    {s s1 : G} {j : Job K M} (h : makeJob E parse i inp cfg s = (.ok j, s1)) :
    E.make inp s = (.ok j.model, s1) ∧ j.i = i ∧
      ∃ q : ℚ, UsesIf parse (dget cfg) q ∧
        RunTime (dget cfg) (q : K) (E.dt j.model) (j.stop - E.time j.model) := by
  unfold makeJob at h
  generalize hm : E.make inp s = r at h
  match r, h with
  | (.ok mo, s2), h =>
    simp only at h
    generalize hd : duration parse cfg (E.dt mo) = d at h
    match d, h with
    | .ok d, h =>
      obtain ⟨rfl, rfl⟩ := by simpa using h
      refine ⟨rfl, rfl, ?_⟩
      have := (C61_duration parse cfg (E.dt mo) d).1 hd
      simpa using this

/-! ## The loop of updates -/

/-- Specification: every update that does not raise moves the clock by one timestep, of the same
length as before. -/
def Clock (E : Engine K In M G) : Prop :=
  ∀ mo s mo1 s1, E.update mo s = (none, mo1, s1) → E.time mo1 = E.time mo + E.dt mo ∧ E.dt mo1 = E.dt mo

lemma loop_spec {E : Engine K In M G} (hc : Clock E) {stop : K} : ∀ {fuel : ℕ} {mo : M} {s : G}
    {r : Looped M G}, runLoop E stop fuel mo s = some r →
    (∀ k : ℕ, k < r.updates → E.time mo + k * E.dt mo < stop) ∧
    (r.raised = none → E.time r.model = E.time mo + r.updates * E.dt mo ∧ stop ≤ E.time r.model) ∧
    (∀ e, r.raised = some e → E.time mo + r.updates * E.dt mo < stop)
  | fuel, mo, s, r, h => by
    unfold runLoop at h
    by_cases ht : E.time mo < stop
    · rw [if_pos ht] at h
      cases fuel with
      | zero => cases h
      | succ fuel =>
        simp only at h
        generalize hu : E.update mo s = u at h
        match u, h with
        | (some e, mo1, s1), h =>
          obtain rfl := by simpa using h
          refine ⟨by simp, by simp, ?_⟩
          intro e' _
          simpa using ht
        | (none, mo1, s1), h =>
          simp only at h
          generalize hr : runLoop E stop fuel mo1 s1 = r1 at h
          match r1, h with
          | some r1, h =>
            obtain rfl := by simpa using h
            obtain ⟨c1, c2⟩ := hc mo s mo1 s1 hu
            obtain ⟨h1, h2, h3⟩ := loop_spec hc hr
            rw [c1, c2] at h1 h2 h3
            refine ⟨?_, ?_, ?_⟩
            · intro k hk
              simp only at hk
              cases k with
              | zero => simpa using ht
              | succ k =>
                have := h1 k (by omega)
                push_cast
                linarith
            · intro hn
              obtain ⟨e1, e2⟩ := h2 hn
              refine ⟨?_, e2⟩
              simp only [e1]
              push_cast
              ring
            · intro e he
              have := h3 e he
              simp only
              push_cast
              linarith
    · rw [if_neg ht] at h
      obtain rfl := by simpa using h
      exact ⟨by simp, by simpa using ht, by simp⟩

lemma loop_ends {E : Engine K In M G} (hc : Clock E) {stop : K} : ∀ {n : ℕ} {mo : M} {s : G},
    stop ≤ E.time mo + n * E.dt mo → ∃ r, ∀ fuel, n ≤ fuel → runLoop E stop fuel mo s = some r
  | n, mo, s, h => by
    by_cases ht : E.time mo < stop
    · cases n with
      | zero => simp at h; exact absurd ht (not_lt.2 h)
      | succ n =>
        generalize hu : E.update mo s = u
        match u, hu with
        | (some e, mo1, s1), hu =>
          refine ⟨⟨some e, mo1, s1, 0⟩, ?_⟩
          intro fuel hf
          obtain ⟨f, rfl⟩ : ∃ f, fuel = f + 1 := ⟨fuel - 1, by omega⟩
          unfold runLoop
          simp only [if_pos ht, hu]
        | (none, mo1, s1), hu =>
          obtain ⟨c1, c2⟩ := hc mo s mo1 s1 hu
          obtain ⟨r, hr⟩ := loop_ends hc (stop := stop) (n := n) (mo := mo1) (s := s1) (by
            rw [c1, c2]; push_cast at h; linarith)
          refine ⟨{ r with updates := r.updates + 1 }, ?_⟩
          intro fuel hf
          obtain ⟨f, rfl⟩ : ∃ f, fuel = f + 1 := ⟨fuel - 1, by omega⟩
          unfold runLoop
          simp only [if_pos ht, hu, hr f (by omega)]
    · refine ⟨⟨none, mo, s, 0⟩, ?_⟩
      intro fuel _
      unfold runLoop
      rw [if_neg ht]

/-- More fuel does not change the result. -/
lemma loop_fuel {E : Engine K In M G} {stop : K} : ∀ {fuel fuel' : ℕ} {mo : M} {s : G}
    {r : Looped M G}, runLoop E stop fuel mo s = some r → fuel ≤ fuel' →
    runLoop E stop fuel' mo s = some r
  | fuel, fuel', mo, s, r, h, hf => by
    unfold runLoop at h ⊢
    by_cases ht : E.time mo < stop
    · rw [if_pos ht] at h ⊢
      cases fuel with
      | zero => cases h
      | succ fuel =>
        obtain ⟨f, rfl⟩ : ∃ f, fuel' = f + 1 := ⟨fuel' - 1, by omega⟩
        simp only at h ⊢
        generalize hu : E.update mo s = u at h
        match u, h with
        | (some e, mo1, s1), h => exact h
        | (none, mo1, s1), h =>
          simp only at h ⊢
          generalize hr : runLoop E stop fuel mo1 s1 = r1 at h
          match r1, h with
          | some r1, h => simp only [loop_fuel hr (show fuel ≤ f by omega)]; exact h
    · rw [if_neg ht] at h ⊢
      exact h

/-- C61: with a positive timestep every job stops. Unless an update raises, it makes the least number
of updates that reaches the end time, and passes it by less than one timestep. -/
theorem C61_run [Archimedean K] {E : Engine K In M G} (hc : Clock E) {mo : M} (hdt : 0 < E.dt mo)
    (stop : K) (s : G) :
    ∃ r n, (∀ fuel, n ≤ fuel → runLoop E stop fuel mo s = some r) ∧
      (∀ k : ℕ, k < r.updates → E.time mo + k * E.dt mo < stop) ∧
      (r.raised = none → E.time r.model = E.time mo + r.updates * E.dt mo ∧ stop ≤ E.time r.model ∧
        (E.time mo < stop → E.time r.model < stop + E.dt mo)) ∧
      (∀ e, r.raised = some e → E.time mo + r.updates * E.dt mo < stop) := by
  obtain ⟨n, hn⟩ := Archimedean.arch (stop - E.time mo) hdt
  rw [nsmul_eq_mul] at hn
  obtain ⟨r, hr⟩ := loop_ends hc (stop := stop) (n := n) (mo := mo) (s := s) (by linarith)
  obtain ⟨h1, h2, h3⟩ := loop_spec hc (hr n le_rfl)
  refine ⟨r, n, hr, h1, ?_, h3⟩
  intro hn
  obtain ⟨e1, e2⟩ := h2 hn
  refine ⟨e1, e2, ?_⟩
  intro ht
  rw [e1]
  cases hu : r.updates with
  | zero => simp; linarith
  | succ k =>
    have := h1 k (by omega)
    push_cast
    linarith

/-- C61: a job of `n` timesteps makes exactly `n` updates unless one raises. -/
theorem C61_timesteps {E : Engine K In M G} (hc : Clock E) {parse : String → Option ℚ} {i : ℕ} {inp : In}
    {cfg : Dict Yaml} {s s1 : G} {j : Job K M} (h : makeJob E parse i inp cfg s = (.ok j, s1)) {n : ℕ}
    (hn : dget cfg "timesteps" = some (.scalar (.int n))) (hdt : 0 < E.dt j.model) (s2 : G) :
    ∃ r, (∀ fuel, n ≤ fuel → runLoop E j.stop fuel j.model s2 = some r) ∧
      (r.raised = none → r.updates = n ∧ E.time r.model = E.time j.model + n * E.dt j.model) ∧
      (r.raised ≠ none → r.updates < n) := by
  obtain ⟨-, -, q, -, hq⟩ := C61_end h
  have hstop : j.stop = E.time j.model + n * E.dt j.model := by
    rcases hq with ⟨q, ⟨v, hv, hv'⟩, e⟩ | ⟨hc, -⟩ | ⟨hc, -⟩
    · rw [hn] at hv
      obtain rfl := by simpa using hv
      simp only [← numOf_iff, numOf, Option.some.injEq] at hv'
      subst hv'
      push_cast at e
      linarith
    · rw [hn] at hc; cases hc
    · rw [hn] at hc; cases hc
  obtain ⟨r, hr⟩ := loop_ends hc (stop := j.stop) (n := n) (mo := j.model) (s := s2) hstop.le
  obtain ⟨h1, h2, h3⟩ := loop_spec hc (hr n le_rfl)
  refine ⟨r, hr, ?_, ?_⟩
  · intro hn
    obtain ⟨e1, e2⟩ := h2 hn
    have hle : r.updates ≤ n := by
      by_contra hlt
      have := h1 n (by omega)
      rw [hstop] at this
      exact lt_irrefl _ this
    have hge : n ≤ r.updates := by
      rw [e1, hstop] at e2
      have : (n : K) * E.dt j.model ≤ r.updates * E.dt j.model := by linarith
      exact_mod_cast le_of_mul_le_mul_right this hdt
    have := le_antisymm hle hge
    exact ⟨this, by rw [e1, this]⟩
  · intro hn
    obtain ⟨e, he⟩ := Option.ne_none_iff_exists'.1 hn
    have := h3 e he
    rw [hstop] at this
    have : (r.updates : K) * E.dt j.model < n * E.dt j.model := by linarith
    exact_mod_cast lt_of_mul_lt_mul_right this hdt.le

/-- C61: a job of `y` years runs until the real time that has passed is `y` years or more. -/
theorem C61_years [Archimedean K] {E : Engine K In M G} (hc : Clock E) {parse : String → Option ℚ} {i : ℕ}
    {inp : In} {cfg : Dict Yaml} {s s1 : G} {j : Job K M} (h : makeJob E parse i inp cfg s = (.ok j, s1))
    (h1 : dget cfg "timesteps" = none) (h2 : dget cfg "time" = none) {y q : ℚ}
    (h3 : dget cfg "time_years" = some (.scalar (.float y))) (hq : UsesIf parse (dget cfg) q)
    (hq0 : 0 < q) (hq1 : q ≤ 1) (hdt : 0 < E.dt j.model) (s2 : G) :
    ∃ r n, (∀ fuel, n ≤ fuel → runLoop E j.stop fuel j.model s2 = some r) ∧
      (r.raised = none → ∃ t : K,
        scaleModelTime (E.time r.model - E.time j.model) (q : K) "years" = .ok t ∧ (y : K) ≤ t) := by
  obtain ⟨-, -, q', hq', hR⟩ := C61_end h
  have e : q' = q := by
    have := jobIf_ok.2 hq
    rw [jobIf_ok.2 hq'] at this
    simpa using this
  subst e
  obtain ⟨r, n, hr, -, hn, -⟩ := C61_run hc hdt j.stop s2
  refine ⟨r, n, hr, ?_⟩
  intro hnone
  obtain ⟨e1, e2, -⟩ := hn hnone
  have hx : j.stop - E.time j.model = (q' : K) * (y * ((365 + 1 / 4) * (24 * 60 * 60))) := by
    rcases hR with ⟨x, ⟨v, hv, -⟩, -⟩ | ⟨-, x, ⟨v, hv, -⟩, -⟩ | ⟨-, -, x, ⟨v, hv, hv'⟩, e⟩
    · rw [h1] at hv; cases hv
    · rw [h2] at hv; cases hv
    · rw [h3] at hv
      obtain rfl := by simpa using hv
      simp only [← numOf_iff, numOf, Option.some.injEq] at hv'
      rw [e, hv']
  have p0 : (0 : K) < q' := by exact_mod_cast hq0
  have p1 : (q' : K) ≤ 1 := by exact_mod_cast hq1
  have ps : (0 : K) < (365 + 1 / 4) * (24 * 60 * 60) := by norm_num
  refine ⟨(E.time r.model - E.time j.model) / ((365 + 1 / 4) * (24 * 60 * 60) * q'), ?_, ?_⟩
  · rw [C65_scale]
    refine ⟨⟨p0, p1⟩, (365 + 1 / 4) * (24 * 60 * 60), Or.inr (Or.inr ⟨rfl, rfl⟩), ?_⟩
    field_simp
  · rw [le_div_iff₀ (mul_pos ps p0)]
    nlinarith [e2, hx]

end Verif.Props
