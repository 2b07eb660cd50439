import Verif.Model.Clock
import Verif.Spec.Clock
import Verif.Lemmas.Float
import Verif.Props.Jobs
import Verif.Props.Created
import Mathlib.Algebra.Order.Ring.Pow

/-!
# C95: the length of a job in the arithmetic of the program, C96: the schedule of saves
-/

set_option linter.unusedSectionVars false
set_option linter.unusedSimpArgs false

namespace Verif.Props

open Verif.Model Verif.Lemmas Verif.Spec

variable {K : Type*} [Field K] [LinearOrder K] [IsStrictOrderedRing K] {In M G : Type*}

/-! ## Without rounding these are the functions of the exact model -/

theorem timeStepR_exact [FloorRing K] {I : Input K} {L W : ℤ} {D : Derived K}
    (h : boundaryConditions I L W = .ok D) : timeStepR (exact K) I D.N0 = D.dt := by
  simp only [boundaryConditions] at h
  split_ifs at h
  rw [Except.ok.injEq] at h
  subst h
  rfl

theorem durationR_exact (parse : String → Option ℚ) (cfg : Dict Yaml) (dt : K) :
    durationR (exact K) parse cfg dt = duration parse cfg dt := by
  unfold durationR duration
  cases jobIf parse cfg with
  | error e => rfl
  | ok If =>
    simp only
    cases dget cfg "timesteps" with
    | some v => rfl
    | none =>
      simp only
      cases dget cfg "time" with
      | some v => rfl
      | none =>
        simp only
        cases dget cfg "time_years" with
        | none => rfl
        | some v =>
          simp only [timesNumR, timesNum]
          cases numOf v with
          | none => rfl
          | some q => simp only [exact, id, mul_assoc]

theorem makeJobR_exact (E : Engine K In M G) (parse : String → Option ℚ) (i : ℕ) (inp : In)
    (cfg : Dict Yaml) (s : G) :
    makeJobR (exact K) E parse i inp cfg s = makeJob E parse i inp cfg s := by
  simp only [makeJobR, makeJob, durationR_exact]
  rfl

/-! ## The clock -/

variable {R : Rounding K} {dt t : K}

lemma ticks_shift (n : ℕ) : ticks R dt t (n + 1) = ticks R dt (R.fl (t + dt)) n := by
  induction n with
  | zero => rfl
  | succ n ih => rw [ticks, ih, ticks]

lemma ticks_rounded (ht : R.fl t = t) (n : ℕ) : R.fl (ticks R dt t n) = ticks R dt t n := by
  cases n with
  | zero => exact ht
  | succ n => exact R.idem _

lemma ticks_mono (ht : R.fl t = t) (hdt : 0 ≤ dt) : Monotone (ticks R dt t) :=
  monotone_nat_of_le_succ fun n => le_fl_of_le R (ticks_rounded ht n) (by linarith)

lemma ticks_nonneg (hdt : 0 ≤ dt) (n : ℕ) : 0 ≤ ticks R dt 0 n :=
  ticks_mono (fl_zero R) hdt (Nat.zero_le n)

lemma ticks_le (hdt : 0 ≤ dt) (n : ℕ) : ticks R dt 0 n ≤ n * dt * (1 + R.u) ^ n := by
  have hu := R.u_nonneg
  induction n with
  | zero => simp [ticks]
  | succ n ih =>
    have h1 := fl_le R (add_nonneg (ticks_nonneg (R := R) hdt n) hdt)
    have h2 : dt ≤ dt * (1 + R.u) ^ n := le_mul_of_one_le_right hdt (one_le_pow₀ (by linarith))
    calc ticks R dt 0 (n + 1) ≤ (ticks R dt 0 n + dt) * (1 + R.u) := h1
      _ ≤ (n * dt * (1 + R.u) ^ n + dt * (1 + R.u) ^ n) * (1 + R.u) :=
          mul_le_mul_of_nonneg_right (add_le_add ih h2) (by linarith)
      _ = _ := by push_cast; ring

lemma ticks_ge (hdt : 0 ≤ dt) (n : ℕ) : n * dt * (1 - R.u) ^ n ≤ ticks R dt 0 n := by
  have hu := R.u_nonneg
  have hh := R.u_half
  induction n with
  | zero => simp [ticks]
  | succ n ih =>
    have h1 := fl_ge R (add_nonneg (ticks_nonneg (R := R) hdt n) hdt)
    have h2 : dt * (1 - R.u) ^ n ≤ dt := mul_le_of_le_one_right hdt (pow_le_one₀ (by linarith) (by linarith))
    calc _ = (n * dt * (1 - R.u) ^ n + dt * (1 - R.u) ^ n) * (1 - R.u) := by push_cast; ring
      _ ≤ (ticks R dt 0 n + dt) * (1 - R.u) := mul_le_mul_of_nonneg_right (add_le_add ih h2) (by linarith)
      _ ≤ _ := h1

lemma one_sub_mul_le (n : ℕ) : 1 - n * R.u ≤ (1 - R.u) ^ n := by
  have hh := R.u_half
  have := one_add_mul_le_pow (a := -R.u) (by linarith) n
  calc _ = 1 + (n : K) * -R.u := by ring
    _ ≤ _ := this
    _ = _ := by rw [← sub_eq_add_neg]

lemma pow_mul_le (n : ℕ) : (1 + R.u) ^ n * (1 - n * R.u) ≤ 1 := by
  have hu := R.u_nonneg
  have hh := R.u_half
  calc _ ≤ (1 + R.u) ^ n * (1 - R.u) ^ n :=
        mul_le_mul_of_nonneg_left (one_sub_mul_le n) (by positivity)
    _ = (1 - R.u * R.u) ^ n := by rw [← mul_pow]; ring_nf
    _ ≤ 1 := pow_le_one₀ (by nlinarith) (by nlinarith)

/-- C95: after `n` updates the clock of a new model is off by a factor between `1 - n u` and
`1 / (1 - n u)`. -/
theorem C95_drift (hdt : 0 ≤ dt) (n : ℕ) :
    n * dt * (1 - n * R.u) ≤ ticks R dt 0 n ∧
      (n * R.u ≤ 1 → ticks R dt 0 n * (1 - n * R.u) ≤ n * dt) := by
  have hn : 0 ≤ (n : K) * dt := by positivity
  constructor
  · exact (mul_le_mul_of_nonneg_left (one_sub_mul_le n) hn).trans (ticks_ge hdt n)
  · intro h1
    calc _ ≤ n * dt * (1 + R.u) ^ n * (1 - n * R.u) :=
          mul_le_mul_of_nonneg_right (ticks_le hdt n) (by linarith)
      _ = n * dt * ((1 + R.u) ^ n * (1 - n * R.u)) := by ring
      _ ≤ n * dt * 1 := mul_le_mul_of_nonneg_left (pow_mul_le n) hn
      _ = _ := mul_one _

/-- For not too many timesteps the clock reaches the rounded product after `n` or `n + 1` updates. -/
lemma ticks_around (hdt : 0 < dt) {n : ℕ} (hn : 2 * ((n : K) + 1) ^ 2 * R.u ≤ 1) :
    (∀ k < n, ticks R dt 0 k < R.fl (n * dt)) ∧ R.fl (n * dt) ≤ ticks R dt 0 (n + 1) := by
  have hu := R.u_nonneg
  have hh := R.u_half
  have hnd : 0 ≤ (n : K) * dt := by positivity
  constructor
  · intro k hk
    obtain ⟨j, rfl⟩ : ∃ j, n = j + 1 := ⟨n - 1, by omega⟩
    refine (ticks_mono (fl_zero R) hdt.le (Nat.lt_succ_iff.1 hk)).trans_lt ?_
    by_contra hcon
    rw [not_lt] at hcon
    push_cast at hn hnd hcon
    have h1 := fl_ge R hnd
    have hju : (j : K) * R.u ≤ 1 := by nlinarith [(Nat.cast_nonneg j : (0 : K) ≤ j)]
    have h2 := (C95_drift (R := R) hdt.le j).2 hju
    have h3 : ((j : K) + 1) * dt * (1 - R.u) * (1 - j * R.u) ≤ j * dt := by
      refine le_trans ?_ h2
      exact mul_le_mul_of_nonneg_right (h1.trans hcon) (by linarith)
    have h4 : ((j : K) + 1) * ((1 - R.u) * (1 - j * R.u)) ≤ j := by
      have : dt * (((j : K) + 1) * ((1 - R.u) * (1 - j * R.u))) ≤ dt * j := by linarith
      exact le_of_mul_le_mul_left this hdt
    have hj := (Nat.cast_nonneg j : (0 : K) ≤ j)
    have h5 : 1 - ((j : K) + 1) * R.u ≤ (1 - R.u) * (1 - j * R.u) := by nlinarith [mul_nonneg hj (mul_nonneg hu hu)]
    have h6 := mul_le_mul_of_nonneg_left h5 (by linarith : (0 : K) ≤ j + 1)
    nlinarith
  · have h1 := fl_le R hnd
    have h2 := (C95_drift (R := R) hdt.le (n + 1)).1
    refine h1.trans (le_trans ?_ h2)
    push_cast
    have hj := (Nat.cast_nonneg n : (0 : K) ≤ n)
    have : (n : K) * (1 + R.u) ≤ (n + 1) * (1 - (n + 1) * R.u) := by nlinarith
    calc _ = dt * (n * (1 + R.u)) := by ring
      _ ≤ dt * ((n + 1) * (1 - (n + 1) * R.u)) := mul_le_mul_of_nonneg_left this hdt.le
      _ = _ := by ring

/-! ## The loop of updates -/

/-- Specification: every update that does not raise adds one timestep to the clock, rounded; the
timestep stays. -/
def ClockR (R : Rounding K) (E : Engine K In M G) : Prop :=
  ∀ mo s mo1 s1, E.update mo s = (none, mo1, s1) →
    E.time mo1 = R.fl (E.time mo + E.dt mo) ∧ E.dt mo1 = E.dt mo

/-- C95: a job that comes to an end made updates until its clock reached the end time. -/
theorem C95_loop {E : Engine K In M G} (hc : ClockR R E) {stop : K} : ∀ {fuel : ℕ} {mo : M} {s : G}
    {r : Looped M G}, runLoop E stop fuel mo s = some r →
    (∀ k < r.updates, ticks R (E.dt mo) (E.time mo) k < stop) ∧
    (r.raised = none → E.time r.model = ticks R (E.dt mo) (E.time mo) r.updates ∧ stop ≤ E.time r.model) ∧
    (∀ e, r.raised = some e → ticks R (E.dt mo) (E.time mo) r.updates < stop)
  | fuel, mo, s, r, h => by
    unfold runLoop at h
    by_cases ht : E.time mo < stop
    · rw [if_pos ht] at h
      cases fuel with
      | zero => cases h
      | succ fuel =>
        simp only at h
        generalize hu : E.update mo s = u at h
        match u, h with
        | (some e, mo1, s1), h =>
          obtain rfl := by simpa using h
          exact ⟨by simp, by simp, fun _ _ => ht⟩
        | (none, mo1, s1), h =>
          simp only at h
          generalize hr : runLoop E stop fuel mo1 s1 = r1 at h
          match r1, h with
          | some r1, h =>
            obtain rfl := by simpa using h
            obtain ⟨c1, c2⟩ := hc mo s mo1 s1 hu
            obtain ⟨h1, h2, h3⟩ := C95_loop hc hr
            rw [c1, c2] at h1 h2 h3
            refine ⟨?_, ?_, ?_⟩
            · intro k hk
              cases k with
              | zero => exact ht
              | succ k => rw [ticks_shift]; exact h1 k (by simpa using hk)
            · intro hn
              rw [ticks_shift]
              exact h2 hn
            · intro e he
              rw [ticks_shift]
              exact h3 e he
    · rw [if_neg ht] at h
      obtain rfl := by simpa using h
      exact ⟨by simp, by simpa [ticks] using ht, by simp⟩

lemma loopR_ends {E : Engine K In M G} (hc : ClockR R E) {stop : K} : ∀ {n : ℕ} {mo : M} {s : G},
    stop ≤ ticks R (E.dt mo) (E.time mo) n → ∃ r, ∀ fuel, n ≤ fuel → runLoop E stop fuel mo s = some r
  | n, mo, s, h => by
    by_cases ht : E.time mo < stop
    · cases n with
      | zero => exact absurd ht (not_lt.2 h)
      | succ n =>
        generalize hu : E.update mo s = u
        match u, hu with
        | (some e, mo1, s1), hu =>
          refine ⟨⟨some e, mo1, s1, 0⟩, ?_⟩
          intro fuel hf
          obtain ⟨f, rfl⟩ : ∃ f, fuel = f + 1 := ⟨fuel - 1, by omega⟩
          unfold runLoop
          simp only [if_pos ht, hu]
        | (none, mo1, s1), hu =>
          obtain ⟨c1, c2⟩ := hc mo s mo1 s1 hu
          obtain ⟨r, hr⟩ := loopR_ends hc (stop := stop) (n := n) (mo := mo1) (s := s1) (by
            rw [c1, c2, ← ticks_shift]; exact h)
          refine ⟨{ r with updates := r.updates + 1 }, ?_⟩
          intro fuel hf
          obtain ⟨f, rfl⟩ : ∃ f, fuel = f + 1 := ⟨fuel - 1, by omega⟩
          unfold runLoop
          simp only [if_pos ht, hu, hr f (by omega)]
    · refine ⟨⟨none, mo, s, 0⟩, ?_⟩
      intro fuel _
      unfold runLoop
      rw [if_neg ht]

/-- C95: a job whose clock never reaches the end time does not end. -/
theorem C95_endless {E : Engine K In M G} (hc : ClockR R E)
    (hr : ∀ mo s, (E.update mo s).1 = none) {stop : K} {mo : M}
    (h : ∀ n, ticks R (E.dt mo) (E.time mo) n < stop) (fuel : ℕ) (s : G) :
    runLoop E stop fuel mo s = none := by
  cases hl : runLoop E stop fuel mo s with
  | none => rfl
  | some r =>
    have hn : r.raised = none := by
      clear h
      induction fuel generalizing mo s r with
      | zero =>
        unfold runLoop at hl
        split_ifs at hl
        obtain rfl := by simpa using hl
        rfl
      | succ fuel ih =>
        unfold runLoop at hl
        split_ifs at hl
        · generalize hu : E.update mo s = u at hl
          match u, hu, hl with
          | (some e, mo1, s1), hu, _ => have := hr mo s; rw [hu] at this; cases this
          | (none, mo1, s1), hu, hl =>
            simp only at hl
            generalize hr1 : runLoop E stop fuel mo1 s1 = r1 at hl
            match r1, hl with
            | some r1, hl =>
              obtain rfl := by simpa using hl
              exact ih _ r1 hr1
        · obtain rfl := by simpa using hl
          rfl
    obtain ⟨e1, e2⟩ := (C95_loop hc hl).2.1 hn
    rw [e1] at e2
    exact absurd (h r.updates) (not_lt.2 e2)

/-- The end of a job of `n` timesteps of a new model. -/
lemma makeJobR_stop {E : Engine K In M G} {parse : String → Option ℚ} {i : ℕ} {inp : In}
    {cfg : Dict Yaml} {s s1 : G} {j : Job K M} (h : makeJobR R E parse i inp cfg s = (.ok j, s1)) {n : ℕ}
    (hn : dget cfg "timesteps" = some (.scalar (.int n))) (h0 : E.time j.model = 0) :
    j.stop = R.fl (R.fl n * E.dt j.model) := by
  unfold makeJobR at h
  generalize E.make inp s = r at h
  match r, h with
  | (.ok mo, s2), h =>
    simp only [durationR, hn, timesNumR, numOf] at h
    cases hI : jobIf parse cfg with
    | error e => rw [hI] at h; cases h
    | ok q =>
      rw [hI] at h
      obtain ⟨rfl, -⟩ := by simpa using h
      simp only at h0 ⊢
      rw [h0, zero_add, R.idem]

/-- C95: a job of `n` timesteps of a new model ends. Unless an update raises, it makes `n` or `n + 1`
updates, if there are not too many (for numbers of 53 digits, up to 60 million). -/
theorem C95_timesteps_partial {E : Engine K In M G} (hc : ClockR R E) {parse : String → Option ℚ} {i : ℕ}
    {inp : In} {cfg : Dict Yaml} {s s1 : G} {j : Job K M}
    (h : makeJobR R E parse i inp cfg s = (.ok j, s1)) {n : ℕ}
    (hn : dget cfg "timesteps" = some (.scalar (.int n))) (h0 : E.time j.model = 0)
    (hdt : 0 < E.dt j.model) (hfl : R.fl n = n) (hsmall : 2 * ((n : K) + 1) ^ 2 * R.u ≤ 1) (s2 : G) :
    ∃ r, (∀ fuel, n + 1 ≤ fuel → runLoop E j.stop fuel j.model s2 = some r) ∧
      (r.raised = none → r.updates = n ∨ r.updates = n + 1) ∧ (r.raised ≠ none → r.updates ≤ n) := by
  have hstop := makeJobR_stop h hn h0
  rw [hfl] at hstop
  obtain ⟨hlo, hhi⟩ := ticks_around (R := R) hdt hsmall
  rw [← hstop] at hlo hhi
  rw [← h0] at hhi
  obtain ⟨r, hr⟩ := loopR_ends hc (s := s2) hhi
  obtain ⟨c1, c2, c3⟩ := C95_loop hc (hr (n + 1) le_rfl)
  rw [h0] at c1 c2 c3 hhi
  refine ⟨r, hr, ?_, ?_⟩
  · intro hn
    obtain ⟨e1, e2⟩ := c2 hn
    rw [e1] at e2
    have h1 : n ≤ r.updates := by
      by_contra hlt
      exact absurd (hlo _ (not_le.1 hlt)) (not_lt.2 e2)
    have h2 : r.updates ≤ n + 1 := by
      by_contra hlt
      exact absurd (c1 _ (not_le.1 hlt)) (not_lt.2 hhi)
    omega
  · intro hne
    obtain ⟨e, he⟩ := Option.ne_none_iff_exists'.1 hne
    by_contra hlt
    have hd := ticks_mono (R := R) (fl_zero R) hdt.le (show n + 1 ≤ r.updates by omega)
    exact absurd (c3 e he) (not_lt.2 (hhi.trans hd))

/-- C95: if no rounding takes place in the first `n` multiples of the timestep, a job of `n` timesteps
makes exactly `n` updates. -/
theorem C95_exact_partial {E : Engine K In M G} (hc : ClockR R E) {parse : String → Option ℚ} {i : ℕ}
    {inp : In} {cfg : Dict Yaml} {s s1 : G} {j : Job K M}
    (h : makeJobR R E parse i inp cfg s = (.ok j, s1)) {n : ℕ}
    (hn : dget cfg "timesteps" = some (.scalar (.int n))) (h0 : E.time j.model = 0)
    (hdt : 0 < E.dt j.model) (hfl : R.fl n = n)
    (hex : ∀ k ≤ n, R.fl (k * E.dt j.model) = k * E.dt j.model) (s2 : G) :
    ∃ r, (∀ fuel, n ≤ fuel → runLoop E j.stop fuel j.model s2 = some r) ∧
      (r.raised = none → r.updates = n ∧ E.time r.model = n * E.dt j.model) ∧
      (r.raised ≠ none → r.updates < n) := by
  have hstop := makeJobR_stop h hn h0
  rw [hfl, hex n le_rfl] at hstop
  have htick : ∀ k ≤ n, ticks R (E.dt j.model) 0 k = k * E.dt j.model := by
    intro k hk
    induction k with
    | zero => simp [ticks]
    | succ k ih =>
      rw [ticks, ih (by omega), ← hex (k + 1) hk]
      congr 1
      push_cast
      ring
  have hhi : j.stop ≤ ticks R (E.dt j.model) (E.time j.model) n := by
    rw [h0, htick n le_rfl, hstop]
  obtain ⟨r, hr⟩ := loopR_ends hc (s := s2) hhi
  obtain ⟨c1, c2, c3⟩ := C95_loop hc (hr n le_rfl)
  rw [h0] at c1 c2 c3 hhi
  refine ⟨r, hr, ?_, ?_⟩
  · intro hn
    obtain ⟨e1, e2⟩ := c2 hn
    have h2 : r.updates ≤ n := by
      by_contra hlt
      exact absurd (c1 _ (not_le.1 hlt)) (not_lt.2 hhi)
    rw [e1, htick _ h2, hstop] at e2
    have h1 := le_of_mul_le_mul_right e2 hdt
    have h1 : n ≤ r.updates := by exact_mod_cast h1
    have : r.updates = n := by omega
    refine ⟨this, ?_⟩
    rw [e1, this, htick n le_rfl]
  · intro hne
    obtain ⟨e, he⟩ := Option.ne_none_iff_exists'.1 hne
    by_contra hlt
    have hd := ticks_mono (R := R) (fl_zero R) hdt.le (not_lt.1 hlt)
    exact absurd (c3 e he) (not_lt.2 (hhi.trans hd))

/-! ## Saves and checkpoints -/

variable {X : Type*} {cfg : OutCfg K} {f : X → X}

/-- Without rounding an update of the model keeps time like this. -/
theorem timed_exact {σ : Type*} {L W : ℕ} (cfg : OutCfg K) (dt : K) (M : Sim L W K σ) (S : State L W K)
    (s : σ) (hS : S.time = M.S.time + dt) (T : Timed (State L W K) K)
    (ht : T.time = M.S.time) (hs : T.saveSince = M.saveSince) (hk : T.ckptSince = M.ckptSince)
    (hi : T.saveIter = M.saveIter) (hsv : T.saves = M.saves.map fun w => (w.1, w.2.time, w.2.state))
    (hck : T.ckpts.map Prod.fst = M.ckpts.map Ckpt.time) :
    let T' := Timed.update (exact K) cfg dt S T
    let M' := afterStep cfg dt M S s
    T'.x = M'.S ∧ T'.time = M'.S.time ∧ T'.saveSince = M'.saveSince ∧ T'.ckptSince = M'.ckptSince ∧
      T'.saveIter = M'.saveIter ∧ T'.saves = M'.saves.map (fun w => (w.1, w.2.time, w.2.state)) ∧
      T'.ckpts.map Prod.fst = M'.ckpts.map Ckpt.time := by
  have e1 : ∀ o : Option K, addSinceR (exact K) dt o = addSince dt o := by
    intro o; cases o <;> rfl
  have e2 : (exact K).fl (M.S.time + dt) = S.time := hS.symm
  simp only [Timed.update, afterStep, Timed.output, outputData, hs, hk, e1, ht, e2]
  by_cases h1 : due cfg.saveDt (addSince dt M.saveSince) = true <;>
    by_cases h2 : due cfg.ckptDt (addSince dt M.ckptSince) = true <;>
      by_cases h3 : cfg.saveCkpt = true <;>
        simp [h1, h2, h3, Timed.checkpoint, outputCheckpoint, saveGridsAndFigs, takeCkpt, hi, hsv, hck, hS]

lemma run_succ (n : ℕ) (T : Timed X K) :
    Timed.run R cfg dt f (n + 1) T =
      Timed.update R cfg dt (f (Timed.run R cfg dt f n T).x) (Timed.run R cfg dt f n T) := by
  induction n generalizing T with
  | zero => rfl
  | succ n ih => rw [Timed.run, ih, Timed.run]

lemma run_clock (x : X) (n : ℕ) :
    (Timed.run R cfg dt f n (Timed.start cfg x)).x = f^[n] x ∧
      (Timed.run R cfg dt f n (Timed.start cfg x)).time = ticks R dt 0 n := by
  induction n with
  | zero =>
    simp only [Timed.run, Timed.start, Timed.output, due, if_true, Timed.checkpoint, ticks]
    split_ifs <;> exact ⟨rfl, rfl⟩
  | succ n ih =>
    rw [run_succ, Timed.update, Function.iterate_succ_apply', ticks, ← ih.1, ← ih.2]
    simp only [Timed.output, Timed.checkpoint]
    split_ifs <;> exact ⟨rfl, rfl⟩

/-- C96: data are saved at the beginning and then every `m` updates, where `m` is the number of
additions after which a clock that starts at zero reaches the interval. Record `i` shows the model
after `i * m` updates, with the time its clock shows then. -/
theorem C96_saves {m : ℕ} (hm : Reaches R dt cfg.saveDt m) (x : X) (n : ℕ) :
    (Timed.run R cfg dt f n (Timed.start cfg x)).saves =
      (List.range (n / m + 1)).map fun i => (i, ticks R dt 0 (i * m), f^[i * m] x) := by
  obtain ⟨h0, hd, hl⟩ := hm
  suffices h : (Timed.run R cfg dt f n (Timed.start cfg x)).saves =
      ((List.range (n / m + 1)).map fun i => (i, ticks R dt 0 (i * m), f^[i * m] x)) ∧
      (Timed.run R cfg dt f n (Timed.start cfg x)).saveSince = some (ticks R dt 0 (n % m)) ∧
      (Timed.run R cfg dt f n (Timed.start cfg x)).saveIter = n / m + 1 from h.1
  induction n with
  | zero =>
    simp only [Timed.run, Timed.start, Timed.output, due, if_true, Timed.checkpoint]
    split_ifs <;> simp [ticks]
  | succ n ih =>
    obtain ⟨i1, i2, i3⟩ := ih
    obtain ⟨c1, c2⟩ := run_clock (R := R) (cfg := cfg) (dt := dt) (f := f) x n
    have hck : ∀ T : Timed X K, (Timed.checkpoint cfg T).saves = T.saves ∧
        (Timed.checkpoint cfg T).saveSince = T.saveSince ∧
        (Timed.checkpoint cfg T).saveIter = T.saveIter := by
      intro T; simp only [Timed.checkpoint]; split_ifs <;> exact ⟨rfl, rfl, rfl⟩
    rw [run_succ, Timed.update, (hck _).1, (hck _).2.1, (hck _).2.2]
    simp only [Timed.output, i2, addSinceR, due]
    have hlt := Nat.mod_lt n h0
    have hdm := Nat.div_add_mod n m
    have htk : R.fl (ticks R dt 0 (n % m) + dt) = ticks R dt 0 (n % m + 1) := rfl
    rw [htk]
    by_cases hlast : n % m + 1 = m
    · have hq : (n + 1) / m = n / m + 1 := by
        rw [show n + 1 = m * (n / m + 1) by rw [Nat.mul_add]; omega]
        exact Nat.mul_div_cancel_left _ h0
      have hr : (n + 1) % m = 0 := by
        rw [show n + 1 = m * (n / m + 1) by rw [Nat.mul_add]; omega]
        exact Nat.mul_mod_right _ _
      have hn1 : (n / m + 1) * m = n + 1 := by rw [Nat.mul_comm, Nat.mul_add]; omega
      rw [hlast, decide_eq_true hd, if_pos rfl, hq, hr]
      refine ⟨?_, rfl, ?_⟩
      · simp only [i1, i3]
        rw [List.range_succ (n := n / m + 1), List.map_append, List.map_singleton, hn1, c2, c1,
          Function.iterate_succ_apply']
        rfl
      · simp only [i3]
    · have hnot := hl (n % m + 1) (by omega) (by omega)
      have hq : (n + 1) / m = n / m := by
        rw [show n + 1 = (n % m + 1) + m * (n / m) by omega, Nat.add_mul_div_left _ _ h0,
          Nat.div_eq_of_lt (by omega), Nat.zero_add]
      have hr : (n + 1) % m = n % m + 1 := by
        rw [show n + 1 = (n % m + 1) + m * (n / m) by omega, Nat.add_mul_mod_self_left,
          Nat.mod_eq_of_lt (by omega)]
      rw [decide_eq_false (not_le.2 hnot), hq, hr]
      simp only [Bool.false_eq_true, if_false, i1, i2, i3]
      exact ⟨trivial, trivial, trivial⟩

/-- C96: checkpoints, where they are on, are written at the beginning and then every `m` updates, with
`m` as for the saves. -/
theorem C96_checkpoints {m : ℕ} (hc : cfg.saveCkpt = true) (hm : Reaches R dt cfg.ckptDt m) (x : X)
    (n : ℕ) :
    (Timed.run R cfg dt f n (Timed.start cfg x)).ckpts =
      (List.range (n / m + 1)).map fun i => (ticks R dt 0 (i * m), f^[i * m] x) := by
  obtain ⟨h0, hd, hl⟩ := hm
  have hout : ∀ T : Timed X K, (Timed.output cfg T).ckpts = T.ckpts ∧
      (Timed.output cfg T).ckptSince = T.ckptSince ∧ (Timed.output cfg T).time = T.time ∧
      (Timed.output cfg T).x = T.x := by
    intro T; simp only [Timed.output]; split_ifs <;> exact ⟨rfl, rfl, rfl, rfl⟩
  suffices h : (Timed.run R cfg dt f n (Timed.start cfg x)).ckpts =
      ((List.range (n / m + 1)).map fun i => (ticks R dt 0 (i * m), f^[i * m] x)) ∧
      (Timed.run R cfg dt f n (Timed.start cfg x)).ckptSince = some (ticks R dt 0 (n % m)) from h.1
  induction n with
  | zero =>
    simp only [Timed.run, Timed.start, Timed.checkpoint, (hout _).1, (hout _).2.1, (hout _).2.2.1,
      (hout _).2.2.2, due, if_true, hc]
    simp [ticks]
  | succ n ih =>
    obtain ⟨i1, i2⟩ := ih
    obtain ⟨c1, c2⟩ := run_clock (R := R) (cfg := cfg) (dt := dt) (f := f) x n
    rw [run_succ, Timed.update]
    simp only [Timed.checkpoint, (hout _).1, (hout _).2.1, (hout _).2.2.1, (hout _).2.2.2, i2, addSinceR, due,
      hc, if_true]
    have hlt := Nat.mod_lt n h0
    have hdm := Nat.div_add_mod n m
    have htk : R.fl (ticks R dt 0 (n % m) + dt) = ticks R dt 0 (n % m + 1) := rfl
    rw [htk]
    by_cases hlast : n % m + 1 = m
    · have hq : (n + 1) / m = n / m + 1 := by
        rw [show n + 1 = m * (n / m + 1) by rw [Nat.mul_add]; omega]
        exact Nat.mul_div_cancel_left _ h0
      have hr : (n + 1) % m = 0 := by
        rw [show n + 1 = m * (n / m + 1) by rw [Nat.mul_add]; omega]
        exact Nat.mul_mod_right _ _
      have hn1 : (n / m + 1) * m = n + 1 := by rw [Nat.mul_comm, Nat.mul_add]; omega
      rw [hlast, decide_eq_true hd, if_pos rfl, hq, hr]
      refine ⟨?_, rfl⟩
      simp only [i1]
      rw [List.range_succ (n := n / m + 1), List.map_append, List.map_singleton, hn1, c2, c1,
        Function.iterate_succ_apply']
      rfl
    · have hnot := hl (n % m + 1) (by omega) (by omega)
      have hq : (n + 1) / m = n / m := by
        rw [show n + 1 = (n % m + 1) + m * (n / m) by omega, Nat.add_mul_div_left _ _ h0,
          Nat.div_eq_of_lt (by omega), Nat.zero_add]
      have hr : (n + 1) % m = n % m + 1 := by
        rw [show n + 1 = (n % m + 1) + m * (n / m) by omega, Nat.add_mul_mod_self_left,
          Nat.mod_eq_of_lt (by omega)]
      rw [decide_eq_false (not_le.2 hnot), hq, hr]
      simp only [Bool.false_eq_true, if_false, (hout _).1, (hout _).2.1, i1, i2, addSinceR, htk]
      exact ⟨trivial, trivial⟩

/-- C96: for an interval of `k` timesteps data are saved every `k` or `k + 1` updates, if there are not
too many. -/
theorem C96_interval_partial (hdt : 0 < dt) {k : ℕ} (hk : 0 < k)
    (hsmall : 2 * ((k : K) + 1) ^ 2 * R.u ≤ 1) :
    Reaches R dt (R.fl (k * dt)) k ∨ Reaches R dt (R.fl (k * dt)) (k + 1) := by
  obtain ⟨hlo, hhi⟩ := ticks_around (R := R) hdt hsmall
  by_cases h : R.fl (k * dt) ≤ ticks R dt 0 k
  · exact .inl ⟨hk, h, fun j _ hj => hlo j hj⟩
  · refine .inr ⟨by omega, hhi, fun j _ hj => ?_⟩
    rcases Nat.lt_succ_iff_lt_or_eq.1 hj with h1 | rfl
    · exact hlo j h1
    · exact not_le.1 h

/-! ## Numbers of `p` binary digits -/

section
variable [FloorRing K]

lemma binary_nat {p : ℕ} (hp : 1 ≤ p) {n m : ℕ} {e : ℤ} (h : n * m ≤ 2 ^ p) :
    (binary K p hp).fl (n * (m * 2 ^ e)) = n * (m * 2 ^ e) := by
  have := nearest_exact (K := K) hp (m := ((n * m : ℕ) : ℤ)) (by
    rw [abs_of_nonneg (by positivity)]; exact_mod_cast h) e
  rw [Int.cast_natCast, Nat.cast_mul, mul_assoc] at this
  exact this

/-- C95: if the timestep is `m * 2 ^ e` and `n * m` has at most `p` binary digits, a job of `n`
timesteps makes exactly `n` updates. In particular for timesteps of a whole number of seconds. -/
theorem C95_whole_partial {p : ℕ} (hp : 1 ≤ p) {E : Engine K In M G} (hc : ClockR (binary K p hp) E)
    {parse : String → Option ℚ} {i : ℕ} {inp : In} {cfg : Dict Yaml} {s s1 : G} {j : Job K M}
    (h : makeJobR (binary K p hp) E parse i inp cfg s = (.ok j, s1)) {n : ℕ}
    (hn : dget cfg "timesteps" = some (.scalar (.int n))) (h0 : E.time j.model = 0)
    {m : ℕ} {e : ℤ} (hm : 0 < m) (hdt : E.dt j.model = m * 2 ^ e) (hnm : n * m ≤ 2 ^ p) (s2 : G) :
    ∃ r, (∀ fuel, n ≤ fuel → runLoop E j.stop fuel j.model s2 = some r) ∧
      (r.raised = none → r.updates = n ∧ E.time r.model = n * E.dt j.model) ∧
      (r.raised ≠ none → r.updates < n) := by
  refine C95_exact_partial hc h hn h0 ?_ ?_ ?_ s2
  · rw [hdt]
    exact mul_pos (by exact_mod_cast hm) (two_zpow_pos e)
  · have := binary_nat (K := K) hp (n := n) (m := 1) (e := 0)
      (by rw [Nat.mul_one]; exact (Nat.le_mul_of_pos_right n hm).trans hnm)
    simpa using this
  · intro k hk
    rw [hdt]
    exact binary_nat hp ((Nat.mul_le_mul_right m hk).trans hnm)

end

/-- The numbers of Python and of `float64` arrays. -/
abbrev double : Rounding ℚ := binary ℚ 53 (by norm_num)

/-- The default configuration, as read. -/
def exDefault : Input ℚ := { exInput with C0pct := double.fl (1 / 10) }

/-- C95: in the default configuration the timestep is 25000 seconds, also in the arithmetic of the
program, so that jobs of any number of timesteps up to 360 billion have the right length. -/
theorem C95_default : timeStepR double exDefault 5 = 25000 := by decide +kernel

/-- The default configuration with an inlet velocity of 1.5 m/s. -/
def exFast : Input ℚ := { exDefault with u0 := 3 / 2 }

/-- C95 is false: with an inlet velocity of 1.5 m/s and the defaults otherwise, every job of 10
timesteps makes 11 updates, unless one raises. -/
theorem C95_one_more {E : Engine ℚ In M G} (hc : ClockR double E) {parse : String → Option ℚ} {i : ℕ}
    {inp : In} {cfg : Dict Yaml} {s s1 : G} {j : Job ℚ M}
    (h : makeJobR double E parse i inp cfg s = (.ok j, s1))
    (hn : dget cfg "timesteps" = some (.scalar (.int 10))) (h0 : E.time j.model = 0)
    (hdt : E.dt j.model = timeStepR double exFast 5) (s2 : G) :
    ∃ r, (∀ fuel, 11 ≤ fuel → runLoop E j.stop fuel j.model s2 = some r) ∧
      (r.raised = none → r.updates = 11) := by
  have hstop := makeJobR_stop (n := 10) h hn h0
  rw [hdt] at hstop
  have hlo : ∀ k < 11, ticks double (E.dt j.model) (E.time j.model) k < j.stop := by
    rw [hdt, h0, hstop]
    decide +kernel
  have hhi : j.stop ≤ ticks double (E.dt j.model) (E.time j.model) 11 := by
    rw [hdt, h0, hstop]
    decide +kernel
  obtain ⟨r, hr⟩ := loopR_ends hc (s := s2) hhi
  obtain ⟨c1, c2, c3⟩ := C95_loop hc (hr 11 le_rfl)
  refine ⟨r, hr, fun hn => ?_⟩
  obtain ⟨e1, e2⟩ := c2 hn
  rw [e1] at e2
  have h1 : 11 ≤ r.updates := by
    by_contra hlt
    exact absurd (hlo _ (not_le.1 hlt)) (not_lt.2 e2)
  have h2 : r.updates ≤ 11 := by
    by_contra hlt
    exact absurd (c1 _ (not_le.1 hlt)) (not_lt.2 hhi)
  omega

/-- In exact arithmetic the timestep is `50000 / 3` seconds and 10 timesteps are reached after 10
updates. -/
example : timeStepR (exact ℚ) { exInput with u0 := 3 / 2 } 5 = 50000 / 3 ∧
    Reaches (exact ℚ) (50000 / 3) (10 * (50000 / 3)) 10 := by
  refine ⟨by decide +kernel, by norm_num, by decide +kernel, ?_⟩
  intro k _ hk
  interval_cases k <;> decide +kernel

/-- A class that only keeps time. -/
def clockOnly (R : Rounding K) (dt : K) : Engine K Unit K Unit where
  make _ _ := (.ok 0, ())
  defer _ _ := (.ok 0, ())
  begin mo _ := (none, mo, ())
  time mo := mo
  dt _ := dt
  update mo _ := (none, R.fl (mo + dt), ())
  finalize mo _ := (none, mo, ())

/-- Non-trivial case for `C95_one_more` and `C95_timesteps_partial`. -/
example : ClockR double (clockOnly double (timeStepR double exFast 5)) ∧
    ∃ j s1, makeJobR double (clockOnly double (timeStepR double exFast 5)) (fun _ => none) 0 ()
      [("timesteps", .scalar (.int 10))] () = (.ok j, s1) ∧ j.model = 0 ∧
      double.fl (10 : ℕ) = (10 : ℕ) ∧ 2 * (((10 : ℕ) : ℚ) + 1) ^ 2 * double.u ≤ 1 := by
  refine ⟨fun mo s mo1 s1 h => ?_, _, _, rfl, rfl, by decide +kernel, ?_⟩
  · obtain ⟨-, rfl, -⟩ := by simpa [clockOnly] using h
    exact ⟨rfl, rfl⟩
  · show 2 * (((10 : ℕ) : ℚ) + 1) ^ 2 * (1 / 2) ^ 53 ≤ 1
    norm_num

/-- Non-trivial case for `C95_whole_partial`: the default timestep. -/
example : (25000 : ℚ) = (25000 : ℕ) * 2 ^ (0 : ℤ) ∧ 1000000 * 25000 ≤ 2 ^ 53 := by norm_num

/-- An inlet velocity of 2 m/s and a concentration of 0.3 percent. -/
def exLaden : Input ℚ := { exDefault with u0 := 2, C0pct := double.fl (3 / 10) }

/-- C96 is false: with an inlet velocity of 2 m/s and a concentration of 0.3 percent, data are saved
every 13 updates for an interval of 50000 seconds, which are 12 timesteps. -/
theorem C96_one_late : Reaches double (timeStepR double exLaden 5) 50000 13 ∧
    Reaches (exact ℚ) (timeStepR (exact ℚ) { exInput with u0 := 2, C0pct := 3 / 10 } 5) 50000 12 := by
  refine ⟨⟨by norm_num, by decide +kernel, ?_⟩, by norm_num, by decide +kernel, ?_⟩
  · intro k _ hk
    interval_cases k <;> decide +kernel
  · intro k _ hk
    interval_cases k <;> decide +kernel

/-- Hence a run of 156 updates has 13 records instead of 14. -/
theorem C96_fewer {cfg : OutCfg ℚ} (h : cfg.saveDt = 50000) (x : X) :
    (Timed.run double cfg (timeStepR double exLaden 5) f 156 (Timed.start cfg x)).saves.length = 13 ∧
    (Timed.run (exact ℚ) cfg (timeStepR (exact ℚ) { exInput with u0 := 2, C0pct := 3 / 10 } 5) f 156
      (Timed.start cfg x)).saves.length = 14 := by
  obtain ⟨h1, h2⟩ := C96_one_late
  rw [← h] at h1 h2
  rw [C96_saves h1, C96_saves h2]
  simp

end Verif.Props
