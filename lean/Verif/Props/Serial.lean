import Verif.Props.Jobs
import Verif.Props.FigName
import Verif.Model.SimEngine

/-!
# C63: serial jobs, C61 for the modelled class, C68: the generator shared by serial jobs
-/

set_option linter.unusedSectionVars false
set_option linter.unusedSimpArgs false

namespace Verif.Props

open Verif.Model Verif.Lemmas Verif.Spec

variable {K : Type*} [Field K] [LinearOrder K] [IsStrictOrderedRing K] {In M G : Type*}

/-! ## One job -/

/-- Specification: how a job that is started ends. Its updates end (`l`). If they raised an exception
that is not caught, the job raises it. Otherwise the model is finalized and the result of both parts is
reported, unless finalizing raises an exception that is not caught. -/
inductive Ends (E : Engine K In M G) (fuel : ℕ) (j : Job K M) (s : G) (r : Ran M G) : Prop
  /-- an exception in the updates that is not caught -/
  | broken (l : Looped M G) (e : Exc) (loop : runLoop E j.stop fuel j.model s = some l)
      (raised : l.raised = some e) (caught : e.caught = false) (eq : r = ⟨some e, l.model, l.rng, [], l.updates⟩)
  /-- the model is finalized -/
  | closed (l : Looped M G) (c d : ℕ) (fe : Option Exc)
      (loop : runLoop E j.stop fuel j.model s = some l)
      (ok : l.raised = none ∧ c = 0 ∨ ∃ e, l.raised = some e ∧ e.caught = true ∧ c = 1)
      (fin : E.finalize l.model l.rng = (fe, r.model, r.rng))
      (fok : fe = none ∧ d = 0 ∨ ∃ e, fe = some e ∧ e.caught = true ∧ d = 1)
      (raised : r.raised = none) (reports : r.reports = [⟨j.i, 1, c⟩, ⟨j.i, 2, d⟩])
      (updates : r.updates = l.updates)
  /-- finalizing raises an exception that is not caught -/
  | unclosed (l : Looped M G) (c : ℕ) (e : Exc)
      (loop : runLoop E j.stop fuel j.model s = some l)
      (ok : l.raised = none ∧ c = 0 ∨ ∃ e, l.raised = some e ∧ e.caught = true ∧ c = 1)
      (fin : E.finalize l.model l.rng = (some e, r.model, r.rng)) (caught : e.caught = false)
      (raised : r.raised = some e) (reports : r.reports = [⟨j.i, 1, c⟩]) (updates : r.updates = l.updates)

lemma finish_ends {E : Engine K In M G} {fuel : ℕ} {j : Job K M} {s : G} {l : Looped M G} {c : ℕ}
    (loop : runLoop E j.stop fuel j.model s = some l)
    (ok : l.raised = none ∧ c = 0 ∨ ∃ e, l.raised = some e ∧ e.caught = true ∧ c = 1) :
    Ends E fuel j s (finishJob E j.i l.model l.rng [⟨j.i, 1, c⟩] l.updates) := by
  unfold finishJob
  generalize hf : E.finalize l.model l.rng = f
  match f, hf with
  | (none, m1, s1), hf =>
    exact .closed l c 0 none loop ok hf (Or.inl ⟨rfl, rfl⟩) rfl rfl rfl
  | (some e, m1, s1), hf =>
    cases he : e.caught with
    | true =>
      simp only [he, if_true]
      exact .closed l c 1 (some e) loop ok hf (Or.inr ⟨e, rfl, he, rfl⟩) rfl rfl rfl
    | false =>
      simp only [he, Bool.false_eq_true, if_false]
      exact .unclosed l c e loop ok hf he rfl rfl rfl

/-- C63: every job that is started ends in one of the specified ways. -/
theorem C63_job {E : Engine K In M G} {fuel : ℕ} {j : Job K M} {s : G} {r : Ran M G}
    (h : runJob E fuel j s = some r) : Ends E fuel j s r := by
  unfold runJob at h
  generalize hl : runLoop E j.stop fuel j.model s = l at h
  match l, h with
  | some l, h =>
    simp only at h
    cases hr : l.raised with
    | none =>
      rw [hr] at h
      obtain rfl := by simpa using h
      exact finish_ends hl (Or.inl ⟨hr, rfl⟩)
    | some e =>
      rw [hr] at h
      simp only at h
      cases he : e.caught with
      | true =>
        simp only [he, if_true] at h
        obtain rfl := by simpa using h
        exact finish_ends hl (Or.inr ⟨e, hr, he, rfl⟩)
      | false =>
        simp only [he, Bool.false_eq_true, if_false] at h
        obtain rfl := by simpa using h
        exact .broken l e hl hr he rfl

/-! ## All jobs -/

/-- C63: the jobs that are started are the first ones, in order; each goes on with the generator where
the one before left it. All are started, unless one raises an exception that is not caught: it is the
last one, and the exception is raised. -/
theorem C63_serial {E : Engine K In M G} {fuel : ℕ} : ∀ {js : List (Job K M)} {s s' : G}
    {rs : List (Ran M G)} {e : Option Exc}, runSerial E fuel js s = some (rs, e, s') →
    (∀ (k : ℕ) (r : Ran M G), rs[k]? = some r → ∃ j, js[k]? = some j ∧
      Ends E fuel j (match k with
        | 0 => s
        | k + 1 => ((rs[k]?).map Ran.rng).getD s) r) ∧
    (e = none → rs.length = js.length ∧ ∀ r ∈ rs, r.raised = none) ∧
    (∀ x, e = some x → x.caught = false ∧
      ∃ pre r, rs = pre ++ [r] ∧ r.raised = some x ∧ ∀ r ∈ pre, r.raised = none)
  | [], s, s', rs, e, h => by
    obtain ⟨rfl, rfl, rfl⟩ := by simpa [runSerial] using h
    exact ⟨by simp, by simp, by simp⟩
  | j :: js, s, s', rs, e, h => by
    unfold runSerial at h
    generalize hr : runJob E fuel j s = r at h
    match r, h with
    | some r, h =>
      have hE := C63_job hr
      simp only at h
      cases hx : r.raised with
      | some x =>
        rw [hx] at h
        obtain ⟨rfl, rfl, rfl⟩ := by simpa using h
        refine ⟨?_, by simp, ?_⟩
        · intro k r' hk
          cases k with
          | zero =>
            obtain rfl : r = r' := by simpa using hk
            exact ⟨j, rfl, hE⟩
          | succ k => simp at hk
        · rintro y hy
          obtain rfl : x = y := by simpa using hy
          refine ⟨?_, [], r, rfl, hx, by simp⟩
          cases hE with
          | broken l e loop raised caught eq => rw [eq] at hx; simp at hx; subst hx; exact caught
          | closed l c d fe loop ok fin fok raised => rw [raised] at hx; cases hx
          | unclosed l c e loop ok fin caught raised => rw [raised] at hx; simp at hx; subst hx; exact caught
      | none =>
        rw [hx] at h
        simp only at h
        generalize hq : runSerial E fuel js r.rng = q at h
        match q, h with
        | some (rs1, e1, s1), h =>
          obtain ⟨rfl, rfl, rfl⟩ := by simpa using h
          obtain ⟨h1, h2, h3⟩ := C63_serial hq
          refine ⟨?_, ?_, ?_⟩
          · intro k r' hk
            cases k with
            | zero =>
              obtain rfl : r = r' := by simpa using hk
              exact ⟨j, rfl, hE⟩
            | succ k =>
              obtain ⟨j', hj', hE'⟩ := h1 k r' (by simpa using hk)
              refine ⟨j', by simpa using hj', ?_⟩
              cases k with
              | zero => simpa using hE'
              | succ k =>
                have hlt : k < rs1.length := by
                  have := (List.getElem?_eq_some_iff.1 (show (rs1)[k + 1]? = some r' by simpa using hk)).1
                  omega
                simp only [List.getElem?_cons_succ, List.getElem?_eq_getElem hlt, Option.map_some,
                  Option.getD_some] at hE' ⊢
                exact hE'
          · intro he
            obtain ⟨c1, c2⟩ := h2 he
            exact ⟨by simp [c1], by simpa using ⟨hx, c2⟩⟩
          · intro x he
            obtain ⟨c1, pre, r', rfl, c3, c4⟩ := h3 x he
            exact ⟨c1, r :: pre, r', rfl, c3, by simpa using ⟨hx, c4⟩⟩

/-- C63: if only exceptions that are caught are raised, every job is run and finalized, whichever
fail. -/
theorem C63_all_partial {E : Engine K In M G}
    (hu : ∀ mo s e mo1 s1, E.update mo s = (some e, mo1, s1) → e.caught = true)
    (hf : ∀ mo s e mo1 s1, E.finalize mo s = (some e, mo1, s1) → e.caught = true) {fuel : ℕ}
    {js : List (Job K M)} {s s' : G} {rs : List (Ran M G)} {e : Option Exc}
    (h : runSerial E fuel js s = some (rs, e, s')) :
    e = none ∧ rs.length = js.length ∧
      ∀ (k : ℕ) (j : Job K M), js[k]? = some j → ∃ (r : Ran M G) (c d : ℕ), rs[k]? = some r ∧
        r.reports = [⟨j.i, 1, c⟩, ⟨j.i, 2, d⟩] ∧
        ∃ m1 s1 fe, E.finalize m1 s1 = (fe, r.model, r.rng) := by
  have hloop : ∀ {fuel stop mo s l e}, runLoop E stop fuel mo s = some l → l.raised = some e →
      e.caught = true := by
    intro fuel
    induction fuel with
    | zero =>
      intro stop mo s l e hl he
      unfold runLoop at hl
      split at hl
      · cases hl
      · obtain rfl := by simpa using hl
        cases he
    | succ fuel ih =>
      intro stop mo s l e hl he
      unfold runLoop at hl
      split at hl
      · simp only at hl
        generalize hx : E.update mo s = u at hl
        match u, hl with
        | (some e1, mo1, s1), hl =>
          obtain rfl := by simpa using hl
          obtain rfl : e1 = e := by simpa using he
          exact hu _ _ _ _ _ hx
        | (none, mo1, s1), hl =>
          simp only at hl
          generalize hr : runLoop E stop fuel mo1 s1 = r1 at hl
          match r1, hl with
          | some r1, hl =>
            obtain rfl := by simpa using hl
            exact ih hr he
      · obtain rfl := by simpa using hl
        cases he
  obtain ⟨h1, h2, h3⟩ := C63_serial h
  have he : e = none := by
    cases e with
    | none => rfl
    | some x =>
      exfalso
      obtain ⟨c1, pre, r, rfl, c3, -⟩ := h3 x rfl
      obtain ⟨j, -, hE⟩ := h1 pre.length r (by simp)
      cases hE with
      | broken l e loop raised caught eq =>
        rw [hloop loop raised] at caught; cases caught
      | closed l c d fe loop ok fin fok raised => rw [raised] at c3; cases c3
      | unclosed l c e loop ok fin caught raised =>
        rw [hf _ _ _ _ _ fin] at caught; cases caught
  obtain ⟨e1, e2⟩ := h2 he
  refine ⟨he, e1, ?_⟩
  intro k j hj
  have hk : k < rs.length := by rw [e1]; exact (List.getElem?_eq_some_iff.1 hj).1
  obtain ⟨j', hj', hE⟩ := h1 k rs[k] (List.getElem?_eq_getElem hk)
  rw [hj] at hj'
  obtain rfl := by simpa using hj'
  have hn := e2 rs[k] (List.getElem_mem hk)
  cases hE with
  | broken l e loop raised caught eq => rw [eq] at hn; cases hn
  | closed l c d fe loop ok fin fok raised reports =>
    exact ⟨rs[k], c, d, List.getElem?_eq_getElem hk, reports, l.model, l.rng, fe, fin⟩
  | unclosed l c e loop ok fin caught raised => rw [hn] at raised; cases raised

/-- C63: an exception in the updates that is not caught: the model is not finalized, nothing is
reported, the later jobs are not started. -/
theorem C63_stops {E : Engine K In M G} {fuel : ℕ} {j : Job K M} {s : G} {l : Looped M G} {x : Exc}
    (hl : runLoop E j.stop fuel j.model s = some l) (hx : l.raised = some x) (hc : x.caught = false)
    (js : List (Job K M)) :
    runSerial E fuel (j :: js) s =
      some ([⟨some x, l.model, l.rng, [], l.updates⟩], some x, l.rng) := by
  unfold runSerial runJob
  rw [hl]
  simp only [hx, hc, Bool.false_eq_true, if_false]

lemma makeJobs_error {E : Engine K In M G} {parse : String → Option ℚ} :
    ∀ {js : List (In × Dict Yaml)} {i : ℕ} {s s' : G} {e : Exc},
    makeJobs E parse i js s = (.error e, s') →
    ∃ (k : ℕ) (inp : In) (cfg : Dict Yaml) (s1 : G), js[k]? = some (inp, cfg) ∧
      makeJob E parse (i + k) inp cfg s1 = (.error e, s')
  | [], i, s, s', e, h => by simp [makeJobs] at h
  | (inp, cfg) :: js, i, s, s', e, h => by
    unfold makeJobs at h
    generalize hm : makeJob E parse i inp cfg s = r at h
    match r, h with
    | (.error e1, s1), h =>
      obtain ⟨rfl, rfl⟩ := by simpa using h
      exact ⟨0, inp, cfg, s, rfl, hm⟩
    | (.ok j, s1), h =>
      simp only at h
      generalize hq : makeJobs E parse (i + 1) js s1 = q at h
      match q, h with
      | (.error e1, s2), h =>
        obtain ⟨rfl, rfl⟩ := by simpa using h
        obtain ⟨k, inp', cfg', s3, c1, c2⟩ := makeJobs_error hq
        exact ⟨k + 1, inp', cfg', s3, by simpa using c1, by rw [show i + (k + 1) = i + 1 + k by omega]; exact c2⟩

/-- C63: all models are made before the first job is started. If one cannot be made, no job is run. -/
theorem C63_made_first {E : Engine K In M G} {parse : String → Option ℚ} {fuel : ℕ}
    {js : List (In × Dict Yaml)} {s : G} {D : Done M G} (h : runJobsSerial E parse fuel js s = some D) :
    (D.jobs = [] ∧ ∃ (k : ℕ) (inp : In) (cfg : Dict Yaml) (s1 : G) (e : Exc), D.raised = some e ∧
      js[k]? = some (inp, cfg) ∧ (makeJob E parse k inp cfg s1).1 = .error e) ∨
    ∃ l s1, makeJobs E parse 0 js s = (.ok l, s1) ∧ runSerial E fuel l s1 = some (D.jobs, D.raised, D.rng) := by
  unfold runJobsSerial at h
  generalize hm : makeJobs E parse 0 js s = r at h
  match r, h with
  | (.error e, s1), h =>
    obtain rfl := by simpa using h
    obtain ⟨k, inp, cfg, s2, c1, c2⟩ := makeJobs_error hm
    exact Or.inl ⟨rfl, k, inp, cfg, s2, e, rfl, c1, by rw [Nat.zero_add] at c2; rw [c2]⟩
  | (.ok l, s1), h =>
    simp only at h
    generalize hq : runSerial E fuel l s1 = q at h
    match q, h with
    | some (rs, e, s2), h =>
      obtain rfl := by simpa using h
      exact Or.inr ⟨l, s1, rfl, hq⟩

/-- Specification: a class of models that do not use the shared generator. -/
structure Private (E : Engine K In M G) : Prop where
  update : ∀ mo s s', (E.update mo s).1 = (E.update mo s').1 ∧ (E.update mo s).2.1 = (E.update mo s').2.1
  finalize : ∀ mo s s', (E.finalize mo s).1 = (E.finalize mo s').1 ∧
    (E.finalize mo s).2.1 = (E.finalize mo s').2.1

lemma loop_private {E : Engine K In M G} (hp : Private E) {stop : K} : ∀ {fuel : ℕ} {mo : M} {s : G}
    (s' : G) {r : Looped M G}, runLoop E stop fuel mo s = some r →
    ∃ r', runLoop E stop fuel mo s' = some r' ∧ r'.raised = r.raised ∧ r'.model = r.model ∧
      r'.updates = r.updates
  | fuel, mo, s, s', r, h => by
    unfold runLoop at h ⊢
    by_cases ht : E.time mo < stop
    · rw [if_pos ht] at h ⊢
      cases fuel with
      | zero => cases h
      | succ fuel =>
        simp only at h ⊢
        obtain ⟨p1, p2⟩ := hp.update mo s s'
        generalize hu : E.update mo s = u at h p1 p2
        generalize hu' : E.update mo s' = u' at p1 p2
        obtain ⟨u1, u2, u3⟩ := u'
        match u, h with
        | (some e, mo1, s1), h =>
          obtain rfl := by simpa using h
          simp only at p1 p2
          subst p1; subst p2
          exact ⟨_, rfl, rfl, rfl, rfl⟩
        | (none, mo1, s1), h =>
          simp only at p1 p2
          subst p1; subst p2
          simp only at h ⊢
          generalize hr : runLoop E stop fuel mo1 s1 = r1 at h
          match r1, h with
          | some r1, h =>
            obtain rfl := by simpa using h
            obtain ⟨r', c1, c2, c3, c4⟩ := loop_private hp u3 hr
            exact ⟨{ r' with updates := r'.updates + 1 }, by simp only [c1], c2, c3, by simp [c4]⟩
    · rw [if_neg ht] at h ⊢
      obtain rfl := by simpa using h
      exact ⟨_, rfl, rfl, rfl, rfl⟩

lemma job_private {E : Engine K In M G} (hp : Private E) {fuel : ℕ} {j : Job K M} {s : G} (s' : G)
    {r : Ran M G} (h : Ends E fuel j s r) :
    ∃ r', runJob E fuel j s' = some r' ∧ r'.raised = r.raised ∧ r'.model = r.model ∧
      r'.reports = r.reports ∧ r'.updates = r.updates := by
  have hfin : ∀ (l l' : Looped M G), l'.model = l.model →
      ∃ y, E.finalize l'.model l'.rng = ((E.finalize l.model l.rng).1, (E.finalize l.model l.rng).2.1, y) := by
    intro l l' e
    obtain ⟨p1, p2⟩ := hp.finalize l.model l.rng l'.rng
    refine ⟨(E.finalize l'.model l'.rng).2.2, ?_⟩
    rw [p1, p2, e]
  cases h with
  | broken l e loop raised caught eq =>
    obtain ⟨l', c1, c2, c3, c4⟩ := loop_private hp s' loop
    refine ⟨⟨some e, l'.model, l'.rng, [], l'.updates⟩, ?_, by rw [eq], by rw [eq]; exact c3, by rw [eq],
      by rw [eq]; exact c4⟩
    unfold runJob
    simp only [c1, c2, raised, caught, Bool.false_eq_true, if_false]
  | closed l c d fe loop ok fin fok raised reports updates =>
    obtain ⟨l', c1, c2, c3, c4⟩ := loop_private hp s' loop
    obtain ⟨y, hy⟩ := hfin l l' c3
    rw [fin] at hy
    simp only at hy
    refine ⟨⟨none, r.model, y, [⟨j.i, 1, c⟩, ⟨j.i, 2, d⟩], l'.updates⟩, ?_, raised.symm, rfl, reports.symm,
      by rw [updates]; exact c4⟩
    unfold runJob
    simp only [c1, c2]
    rcases ok with ⟨o1, rfl⟩ | ⟨e, o1, o2, rfl⟩
    · simp only [o1]
      unfold finishJob
      rw [hy]
      rcases fok with ⟨rfl, rfl⟩ | ⟨e', rfl, f2, rfl⟩
      · rfl
      · simp only [f2, if_true]; rfl
    · simp only [o1, o2, if_true]
      unfold finishJob
      rw [hy]
      rcases fok with ⟨rfl, rfl⟩ | ⟨e', rfl, f2, rfl⟩
      · rfl
      · simp only [f2, if_true]; rfl
  | unclosed l c e loop ok fin caught raised reports updates =>
    obtain ⟨l', c1, c2, c3, c4⟩ := loop_private hp s' loop
    obtain ⟨y, hy⟩ := hfin l l' c3
    rw [fin] at hy
    simp only at hy
    refine ⟨⟨some e, r.model, y, [⟨j.i, 1, c⟩], l'.updates⟩, ?_, raised.symm, rfl, reports.symm,
      by rw [updates]; exact c4⟩
    unfold runJob
    simp only [c1, c2]
    rcases ok with ⟨o1, rfl⟩ | ⟨e, o1, o2, rfl⟩
    · simp only [o1]
      unfold finishJob
      rw [hy]
      simp only [caught, Bool.false_eq_true, if_false]
    · simp only [o1, o2, if_true]
      unfold finishJob
      rw [hy]
      simp only [caught, Bool.false_eq_true, if_false]

/-- C63 / C68: without use of the shared generator, each job that is started ends exactly as it does
alone, whatever happened in the others. -/
theorem C63_isolated {E : Engine K In M G} (hp : Private E) {fuel : ℕ} {js : List (Job K M)} {s s' : G}
    {rs : List (Ran M G)} {e : Option Exc} (h : runSerial E fuel js s = some (rs, e, s'))
    {k : ℕ} {r : Ran M G} {j : Job K M} (hr : rs[k]? = some r) (hj : js[k]? = some j) (s0 : G) :
    ∃ r', runJob E fuel j s0 = some r' ∧ r'.raised = r.raised ∧ r'.model = r.model ∧
      r'.reports = r.reports ∧ r'.updates = r.updates := by
  obtain ⟨j', hj', hE⟩ := (C63_serial h).1 k r hr
  rw [hj] at hj'
  obtain rfl := by simpa using hj'
  exact job_private hp s0 hE

/-- C63: jobs with positive timesteps all come to an end. -/
theorem C63_ends [Archimedean K] {E : Engine K In M G} (hc : Clock E) : ∀ {js : List (Job K M)},
    (∀ j ∈ js, 0 < E.dt j.model) → ∀ s, ∃ n x, ∀ fuel, n ≤ fuel → runSerial E fuel js s = some x
  | [], _, s => ⟨0, ([], none, s), fun _ _ => rfl⟩
  | j :: js, hd, s => by
    obtain ⟨l, n, hl, -⟩ := C61_run hc (hd j List.mem_cons_self) j.stop s
    have hjob : ∃ r, ∀ fuel, n ≤ fuel → runJob E fuel j s = some r := by
      cases hr : l.raised with
      | none =>
        exact ⟨_, fun fuel hf => by unfold runJob; rw [hl fuel hf]; simp only [hr]; rfl⟩
      | some e =>
        cases he : e.caught with
        | true =>
          exact ⟨_, fun fuel hf => by unfold runJob; rw [hl fuel hf]; simp only [hr, he, if_true]; rfl⟩
        | false =>
          exact ⟨_, fun fuel hf => by
            unfold runJob; rw [hl fuel hf]; simp only [hr, he, Bool.false_eq_true, if_false]; rfl⟩
    obtain ⟨r, hr⟩ := hjob
    cases hx : r.raised with
    | some x =>
      refine ⟨n, ([r], some x, r.rng), ?_⟩
      intro fuel hf
      unfold runSerial
      rw [hr fuel hf]
      simp only [hx]
    | none =>
      obtain ⟨n', ⟨rs, e, s1⟩, h'⟩ := C63_ends hc (fun j hj => hd j (List.mem_cons_of_mem _ hj)) r.rng
      refine ⟨max n n', (r :: rs, e, s1), ?_⟩
      intro fuel hf
      unfold runSerial
      rw [hr fuel (le_trans (le_max_left _ _) hf)]
      simp only [hx, h' fuel (le_trans (le_max_right _ _) hf)]

end Verif.Props
