import Verif.Spec.OutAssign
import Verif.Props.FigName
import Verif.Props.SaveFlags
import Verif.Props.NcFile

/-!
# C108: settings of output assigned to a running model
-/

set_option linter.unusedSectionVars false
set_option linter.unusedSimpArgs false

namespace Verif.Props

open Verif.Model Verif.Lemmas Verif.Spec

variable {K : Type*} [Field K] [LinearOrder K] [IsStrictOrderedRing K] [FloorRing K] {σ : Type*}
variable {L W m : ℕ} [NeZero L] [NeZero W]

/-! ### Events -/

lemma events_fire {start : ℕ → Prop} {D : ℕ → K → Prop} {T : ℕ → K} {n : ℕ} {is : List ℕ}
    (h : Events start D T n is) (h0 : is = [] → start (n + 1))
    (hd : ∀ a ∈ is.getLast?, D (n + 1) (T (n + 1) - T a)) : Events start D T (n + 1) (is ++ [n + 1]) := by
  refine ⟨by simp, ?_, ?_, ?_⟩
  · cases is with
    | nil =>
      intro a ha
      simp only [List.nil_append, List.head?_cons, Option.mem_def, Option.some.injEq] at ha
      subst ha
      exact ⟨h0 rfl, fun k hk => h.none rfl k (by omega)⟩
    | cons b is =>
      intro a ha
      exact h.first a (by simpa using ha)
  · rw [List.isChain_append]
    refine ⟨h.next, List.IsChain.singleton _, ?_⟩
    intro a ha b hb
    simp only [List.head?_cons, Option.mem_def, Option.some.injEq] at hb
    subst hb
    obtain ⟨h1, h2⟩ := h.last a ha
    exact ⟨by omega, hd a ha, fun k hk hk' => h2 k hk (by omega)⟩
  · intro a ha
    simp only [List.getLast?_append, List.getLast?_singleton, Option.some_or, Option.mem_def,
      Option.some.injEq] at ha
    subst ha
    exact ⟨le_rfl, fun k hk hk' => by omega⟩

lemma events_skip {start : ℕ → Prop} {D : ℕ → K → Prop} {T : ℕ → K} {n : ℕ} {is : List ℕ}
    (h : Events start D T n is) (h0 : is = [] → ¬ start (n + 1))
    (hd : ∀ a ∈ is.getLast?, ¬ D (n + 1) (T (n + 1) - T a)) : Events start D T (n + 1) is := by
  refine ⟨?_, h.first, h.next, fun a ha => ?_⟩
  · intro e k hk
    rcases Nat.lt_or_ge k (n + 1) with hkn | hkn
    · exact h.none e k (by omega)
    · have : k = n + 1 := by omega
      subst this
      exact h0 e
  · obtain ⟨h1, h2⟩ := h.last a ha
    refine ⟨by omega, fun k hk hk' => ?_⟩
    rcases Nat.lt_or_ge k (n + 1) with hkn | hkn
    · exact h2 k hk (by omega)
    · have : k = n + 1 := by omega
      subst this
      exact hd a ha

lemma chain_le_last {R : ℕ → ℕ → Prop} (hR : ∀ a b, R a b → a < b) : ∀ {is : List ℕ} {a : ℕ}, (a :: is).IsChain R →
    ∀ z ∈ (a :: is).getLast?, a ≤ z
  | [], a, _, z, hz => by
    simp only [List.getLast?_singleton, Option.mem_def, Option.some.injEq] at hz
    exact hz.le
  | b :: is, a, h, z, hz => by
    rw [List.isChain_cons_cons] at h
    rw [List.getLast?_cons_cons] at hz
    exact (hR a b h.1).le.trans (chain_le_last hR h.2 z hz)

lemma events_tail {D : ℕ → K → Prop} {T : ℕ → K} {n : ℕ} : ∀ {is js : List ℕ} {a : ℕ},
    (a :: is).IsChain (fun a b => a < b ∧ D b (T b - T a) ∧ ∀ k, a < k → k < b → ¬ D k (T k - T a)) →
    (∀ z ∈ (a :: is).getLast?, z ≤ n ∧ ∀ k, z < k → k ≤ n → ¬ D k (T k - T z)) →
    (a :: js).IsChain (fun a b => a < b ∧ D b (T b - T a) ∧ ∀ k, a < k → k < b → ¬ D k (T k - T a)) →
    (∀ z ∈ (a :: js).getLast?, z ≤ n ∧ ∀ k, z < k → k ≤ n → ¬ D k (T k - T z)) → is = js
  | [], [], a, _, _, _, _ => rfl
  | [], c :: js, a, _, h2, h3, h4 => by
    rw [List.isChain_cons_cons] at h3
    rw [List.getLast?_cons_cons] at h4
    obtain ⟨z, hz⟩ := last_cases (is := c :: js) (by simp)
    have hcn := (chain_le_last (fun _ _ h => h.1) h3.2 z hz).trans (h4 z hz).1
    exact absurd h3.1.2.1 ((h2 a rfl).2 c h3.1.1 hcn)
  | b :: is, [], a, h1, h2, _, h4 => by
    rw [List.isChain_cons_cons] at h1
    rw [List.getLast?_cons_cons] at h2
    obtain ⟨z, hz⟩ := last_cases (is := b :: is) (by simp)
    have hbn := (chain_le_last (fun _ _ h => h.1) h1.2 z hz).trans (h2 z hz).1
    exact absurd h1.1.2.1 ((h4 a rfl).2 b h1.1.1 hbn)
  | b :: is, c :: js, a, h1, h2, h3, h4 => by
    rw [List.isChain_cons_cons] at h1 h3
    rw [List.getLast?_cons_cons] at h2 h4
    have hbc : b = c := by
      rcases lt_trichotomy b c with h | h | h
      · exact absurd h1.1.2.1 (h3.1.2.2 b h1.1.1 h)
      · exact h
      · exact absurd h3.1.2.1 (h1.1.2.2 c h3.1.1 h)
    subst hbc
    rw [events_tail h1.2 h2 h3.2 h4]

/-- The schedule says exactly when the events are. -/
theorem C108_schedule_unique {start : ℕ → Prop} {D : ℕ → K → Prop} {T : ℕ → K} {n : ℕ} {is js : List ℕ}
    (h1 : Events start D T n is) (h2 : Events start D T n js) : is = js := by
  have hle : ∀ {a : ℕ} {is : List ℕ}, Events start D T n (a :: is) → a ≤ n := by
    intro a is h
    obtain ⟨z, hz⟩ := last_cases (is := a :: is) (by simp)
    exact (chain_le_last (fun _ _ h => h.1) h.next z hz).trans (h.last z hz).1
  cases is with
  | nil =>
    cases js with
    | nil => rfl
    | cons b js => exact absurd (h2.first b rfl).1 (h1.none rfl b (hle h2))
  | cons a is =>
    cases js with
    | nil => exact absurd (h1.first a rfl).1 (h2.none rfl a (hle h1))
    | cons b js =>
      have hab : a = b := by
        rcases lt_trichotomy a b with h | h | h
        · exact absurd (h1.first a rfl).1 ((h2.first b rfl).2 a h)
        · exact h
        · exact absurd (h2.first b rfl).1 ((h1.first a rfl).2 b h)
      subst hab
      rw [events_tail h1.next h1.last h2.next h2.last]

/-! ### Sessions -/

lemma outActs_snoc {g : Rng K σ} {a : OutAct L W m K} : ∀ {as : List (OutAct L W m K)} {X X' : OutObj L W K σ},
    outActs g (as ++ [a]) X = .ok X' → ∃ X1, outActs g as X = .ok X1 ∧ outAct g X1 a = .ok X' := by
  intro as
  induction as with
  | nil =>
    intro X X' h
    simp only [List.nil_append, outActs] at h
    cases hu : outAct g X a with
    | error e => simp [hu] at h
    | ok M1 =>
      simp only [hu, Except.ok.injEq] at h
      subst h
      exact ⟨X, rfl, hu⟩
  | cons b bs ih =>
    intro X X' h
    simp only [List.cons_append, outActs] at h ⊢
    cases hu : outAct g X b with
    | error e => simp [hu] at h
    | ok M1 =>
      simp only [hu] at h
      exact ih h

/-- The settings after assignments; one that raises an error leaves them. -/
def setAfter (pre : String) (Z : OutSet K) (as : List (OutAssign K)) : OutSet K :=
  as.foldl (fun Z a => match setOut pre Z a with
    | .ok Z' => Z'
    | .error _ => Z) Z

lemma setAfter_snoc (pre : String) (Z : OutSet K) (as : List (OutAssign K)) (a : OutAssign K) {Z' : OutSet K}
    (h : setOut pre (setAfter pre Z as) a = .ok Z') : setAfter pre Z (as ++ [a]) = Z' := by
  unfold setAfter at h ⊢
  rw [List.foldl_append, List.foldl_cons, List.foldl_nil, h]

lemma updatesOf_append (as bs : List (OutAct L W m K)) : updatesOf (as ++ bs) = updatesOf as ++ updatesOf bs := by
  induction as with
  | nil => rfl
  | cons a as ih => cases a <;> simp [updatesOf, ih]

lemma assignsOf_append (as bs : List (OutAct L W m K)) : assignsOf (as ++ bs) = assignsOf as ++ assignsOf bs := by
  induction as with
  | nil => rfl
  | cons a as ih => cases a <;> simp [assignsOf, ih]

lemma before_update (as : List (OutAct L W m K)) (P : Params L W m K) (bs : List (OutAct L W m K)) :
    assignedBefore (as ++ .update P :: bs) ((updatesOf as).length + 1) = assignsOf as := by
  induction as with
  | nil => simp [assignedBefore, updatesOf, assignsOf]
  | cons a as ih =>
    cases a with
    | assign a => simp only [List.cons_append, assignedBefore, updatesOf, assignsOf, ih]
    | update Q => simpa only [List.cons_append, assignedBefore, updatesOf, assignsOf, List.length_cons] using ih

lemma out_act_update {g : Rng K σ} {P : Params L W m K} {X X' : OutObj L W K σ} (h : outAct g X (.update P) = .ok X') :
    ∃ M', update g X.set.cfg P X.M = .ok M' ∧ X' = { X with M := M' } ∧
      (X.hasFile = false → X.set.cfg.saveNc = true → due X.set.saveDt (addSince P.dt X.M.saveSince) = false) := by
  unfold outAct at h
  cases hu : update g X.set.cfg P X.M with
  | error e => simp [hu] at h
  | ok M' =>
    simp only [hu] at h
    split_ifs at h with hc
    simp only [Except.ok.injEq] at h
    refine ⟨M', rfl, h.symm, fun h1 h2 => ?_⟩
    rw [Bool.not_eq_true] at hc
    rw [h1, h2] at hc
    simpa using hc

lemma out_act_assign {g : Rng K σ} {a : OutAssign K} {X X' : OutObj L W K σ}
    (h : outAct (m := m) g X (.assign a) = .ok X') : ∃ Z, setOut X.pre X.set a = .ok Z ∧ X' = { X with set := Z } := by
  unfold outAct at h
  cases hu : setOut X.pre X.set a with
  | error e => simp [hu] at h
  | ok Z =>
    simp only [hu, Except.ok.injEq] at h
    exact ⟨Z, rfl, h.symm⟩

/-- The settings, the folder and the file of a session. -/
lemma session_set {g : Rng K σ} {as : List (OutAct L W m K)} {X X' : OutObj L W K σ} (h : outActs g as X = .ok X') :
    X'.set = setAfter X.pre X.set (assignsOf as) ∧ X'.pre = X.pre ∧ X'.hasFile = X.hasFile := by
  induction as using List.reverseRecOn generalizing X' with
  | nil =>
    cases h
    exact ⟨rfl, rfl, rfl⟩
  | append_singleton as a ih =>
    obtain ⟨X1, h1, h2⟩ := outActs_snoc h
    obtain ⟨i1, i2, i3⟩ := ih h1
    rw [assignsOf_append]
    cases a with
    | assign a =>
      obtain ⟨Z, hZ, rfl⟩ := out_act_assign h2
      refine ⟨?_, i2, i3⟩
      rw [i1, i2] at hZ
      exact (setAfter_snoc _ _ _ _ hZ).symm
    | update P =>
      obtain ⟨M', -, rfl, -⟩ := out_act_update h2
      refine ⟨?_, i2, i3⟩
      rw [show assignsOf [OutAct.update P] = [] from rfl, List.append_nil]
      exact i1

/-! ### File names -/

lemma latest_ne (f f' : List Char) (i j : ℕ) : figName false f i ≠ figName true f' j := by
  intro h
  simp only [figName, if_true, Bool.false_eq_true, if_false] at h
  have h1 := List.append_cancel_right h
  simp only [List.append_assoc, List.singleton_append] at h1
  have hn : '_' ∉ zfill5 (strNat j) := fun hm => absurd (zfill5_digits j _ hm) (by decide)
  have hl : '_' ∉ ['l', 'a', 't', 'e', 's', 't'] := by decide
  obtain ⟨-, h3⟩ := append_sep_inj hl hn h1
  exact absurd (zfill5_digits j 'l' (by rw [← h3]; simp)) (by decide)

lemma latest_inj {f f' : List Char} {i j : ℕ} (h : figName false f i = figName false f' j) : f = f' := by
  simp only [figName, Bool.false_eq_true, if_false] at h
  simpa using h

/-! ### The invariant -/

/-- The settings at update number `k`. -/
def setAt (pre : String) (Z : OutSet K) (as : List (OutAct L W m K)) (k : ℕ) : OutSet K :=
  setAfter pre Z (assignedBefore as k)

/-- The saves of a session `as` after its first `n` updates. -/
structure SavePart (g : Rng K σ) (pre : String) (Z : OutSet K) (as : List (OutAct L W m K)) (S : State L W K) (s : σ)
    (n : ℕ) (M : Sim L W K σ) (is : List ℕ) : Prop where
  sched : Events (fun _ => True) (fun k x => (setAt pre Z as k).saveDt ≤ x) (clock S.time ((updatesOf as).map (·.dt))) n is
  snaps : List.Forall₂ (fun k (w : ℕ × Record L W K) => Snapshot g (updatesOf as) S s k w.2 ∧
    w.2.time = clock S.time ((updatesOf as).map (·.dt)) k) is M.saves
  idx : M.saves.map Prod.fst = List.range M.saves.length
  iter : M.saveIter = M.saves.length
  since : ∀ a ∈ is.getLast?, M.saveSince =
    some (clock S.time ((updatesOf as).map (·.dt)) n - clock S.time ((updatesOf as).map (·.dt)) a)
  nc : ∀ i, M.nc i = if ∃ k ∈ is[i]?, (setAt pre Z as k).cfg.saveNc = true then (M.saves[i]?).map Prod.snd else none
  seq : ∀ f i, M.figFiles (figName true f i) = if ∃ k ∈ is[i]?, (setAt pre Z as k).sequential = true ∧
    f ∈ (setAt pre Z as k).cfg.figs then (M.saves[i]?).map Prod.snd else none
  latest : ∀ f, M.figFiles (figName false f 0) = (((is.zip M.saves).filter fun e =>
    !(setAt pre Z as e.1).sequential && decide (f ∈ (setAt pre Z as e.1).cfg.figs)).getLast?).map (·.2.2)

/-- One save with index `M.saveIter` at update `n`. -/
lemma save_fires {g : Rng K σ} {pre : String} {Z : OutSet K} {as : List (OutAct L W m K)} {S : State L W K} {s : σ}
    {n : ℕ} {M : Sim L W K σ} {is : List ℕ}
    (hev : Events (fun _ => True) (fun k x => (setAt pre Z as k).saveDt ≤ x) (clock S.time ((updatesOf as).map (·.dt))) n
      (is ++ [n]))
    (hst : ∃ ls, timesteps g ((updatesOf as).take n) S s = .ok (M.S, ls, M.rng))
    (ht : M.S.time = clock S.time ((updatesOf as).map (·.dt)) n)
    (snaps : List.Forall₂ (fun k (w : ℕ × Record L W K) => Snapshot g (updatesOf as) S s k w.2 ∧
      w.2.time = clock S.time ((updatesOf as).map (·.dt)) k) is M.saves)
    (idx : M.saves.map Prod.fst = List.range M.saves.length) (iter : M.saveIter = M.saves.length)
    (nc : ∀ i, M.nc i = if ∃ k ∈ is[i]?, (setAt pre Z as k).cfg.saveNc = true then (M.saves[i]?).map Prod.snd else none)
    (seq : ∀ f i, M.figFiles (figName true f i) = if ∃ k ∈ is[i]?, (setAt pre Z as k).sequential = true ∧
      f ∈ (setAt pre Z as k).cfg.figs then (M.saves[i]?).map Prod.snd else none)
    (latest : ∀ f, M.figFiles (figName false f 0) = (((is.zip M.saves).filter fun e =>
      !(setAt pre Z as e.1).sequential && decide (f ∈ (setAt pre Z as e.1).cfg.figs)).getLast?).map (·.2.2)) :
    SavePart g pre Z as S s n
      { saveGridsAndFigs (setAt pre Z as n).cfg M with saveIter := M.saveIter + 1, saveSince := some 0 } (is ++ [n]) := by
  have hlen : is.length = M.saves.length := snaps.length_eq
  constructor
  · exact hev
  · refine List.rel_append snaps (List.Forall₂.cons ⟨⟨rfl, ?_⟩, ht⟩ List.Forall₂.nil)
    obtain ⟨ls, h⟩ := hst
    exact ⟨ls, M.rng, h⟩
  · simp only [saveGridsAndFigs, List.map_append, List.length_append, List.map_cons, List.map_nil, List.length_singleton,
      List.range_succ, idx, iter]
  · simp only [saveGridsAndFigs, List.length_append, List.length_singleton, iter]
  · intro a ha
    simp only [List.getLast?_append, List.getLast?_singleton, Option.some_or, Option.mem_def, Option.some.injEq] at ha
    subst ha
    simp
  · intro i
    simp only [saveGridsAndFigs]
    rcases lt_trichotomy i M.saves.length with hi | hi | hi
    · rw [List.getElem?_append_left (by omega), List.getElem?_append_left hi]
      rw [← nc i]
      by_cases hc : (setAt pre Z as n).cfg.saveNc = true
      · rw [if_pos hc, Function.update_of_ne (by omega)]
      · rw [if_neg hc]
    · subst hi
      rw [← hlen, List.getElem?_concat_length, hlen, List.getElem?_concat_length]
      by_cases hc : (setAt pre Z as n).cfg.saveNc = true
      · simp [hc, iter]
      · have := nc M.saves.length
        rw [List.getElem?_eq_none (by omega)] at this
        simp [hc, this]
    · have e : M.nc i = none := by
        have := nc i
        rw [List.getElem?_eq_none (by omega)] at this
        simpa using this
      rw [List.getElem?_eq_none (by simp; omega)]
      simp only [Option.mem_def, reduceCtorEq, false_and, exists_false, if_false]
      split_ifs
      · rw [Function.update_of_ne (by omega), e]
      · exact e
  · intro f i
    simp only [saveGridsAndFigs]
    have hcs : (setAt pre Z as n).cfg.sequential = (setAt pre Z as n).sequential := rfl
    rw [saveFigs_get]
    rcases lt_trichotomy i M.saves.length with hi | hi | hi
    · rw [List.getElem?_append_left (by omega), List.getElem?_append_left hi, if_neg, seq f i]
      rintro ⟨f', -, e⟩
      cases hq : (setAt pre Z as n).cfg.sequential with
      | true =>
        rw [hq] at e
        have := (C41_injective e).2
        omega
      | false =>
        rw [hq] at e
        exact latest_ne _ _ _ _ e.symm
    · subst hi
      have e0 : M.figFiles (figName true f M.saves.length) = none := by
        rw [seq f, List.getElem?_eq_none (by omega)]
        simp
      rw [e0, ← hlen, List.getElem?_concat_length, hlen, List.getElem?_concat_length, iter]
      simp only [Option.mem_def, Option.some.injEq, exists_eq_left', Option.map_some]
      by_cases hq : (setAt pre Z as n).sequential = true ∧ f ∈ (setAt pre Z as n).cfg.figs
      · rw [if_pos hq, if_pos ⟨f, hq.2, by rw [hcs, hq.1]⟩]
      · rw [if_neg hq, if_neg]
        rintro ⟨f', hf', e⟩
        cases hb : (setAt pre Z as n).sequential with
        | true =>
          rw [hcs, hb] at e
          rw [(C41_injective e).1] at hq
          exact hq ⟨hb, hf'⟩
        | false =>
          rw [hcs, hb] at e
          exact latest_ne _ _ _ _ e.symm
    · rw [List.getElem?_eq_none (l := is ++ [n]) (by simp; omega), if_neg, seq f, List.getElem?_eq_none (by omega)]
      · simp
      · rintro ⟨f', -, e⟩
        cases hb : (setAt pre Z as n).sequential with
        | true =>
          rw [hcs, hb] at e
          have := (C41_injective e).2
          omega
        | false =>
          rw [hcs, hb] at e
          exact latest_ne _ _ _ _ e.symm
  · intro f
    simp only [saveGridsAndFigs]
    rw [saveFigs_get, List.zip_append hlen, List.filter_append]
    have hn : ∀ i, figName false f i = figName false f 0 := fun i => rfl
    have hcs : (setAt pre Z as n).cfg.sequential = (setAt pre Z as n).sequential := rfl
    by_cases hq : (setAt pre Z as n).sequential = true
    · rw [if_neg, latest f]
      · simp [hq]
      · rintro ⟨f', -, e⟩
        rw [hcs, hq] at e
        exact latest_ne _ _ _ _ e
    · rw [Bool.not_eq_true] at hq
      by_cases hm : f ∈ (setAt pre Z as n).cfg.figs
      · rw [if_pos ⟨f, hm, by rw [hcs, hq]; rfl⟩]
        simp [hq, hm]
      · rw [if_neg, latest f]
        · simp [hq, hm]
        · rintro ⟨f', h', e⟩
          rw [hcs, hq] at e
          rw [latest_inj e] at hm
          exact hm h'

/-- The checkpoints of a session `as` after its first `n` updates. -/
structure CkPart (g : Rng K σ) (pre : String) (Z : OutSet K) (as : List (OutAct L W m K)) (S : State L W K) (s : σ)
    (n : ℕ) (M : Sim L W K σ) (js : List ℕ) : Prop where
  sched : Events (fun k => (setAt pre Z as k).saveCkpt = true)
    (fun k x => (setAt pre Z as k).saveCkpt = true ∧ (setAt pre Z as k).ckptDt ≤ x)
    (clock S.time ((updatesOf as).map (·.dt))) n js
  snaps : List.Forall₂ (fun k (c : Ckpt L W K σ) => ∃ S' ls s',
    timesteps g ((updatesOf as).take k) S s = .ok (S', ls, s') ∧ HoldsState c S' s') js M.ckpts
  since : M.ckptSince = js.getLast?.map fun a =>
    clock S.time ((updatesOf as).map (·.dt)) n - clock S.time ((updatesOf as).map (·.dt)) a
  last : M.ckpt = M.ckpts.getLast?

lemma ck_fires {g : Rng K σ} {pre : String} {Z : OutSet K} {as : List (OutAct L W m K)} {S : State L W K} {s : σ}
    {n : ℕ} {M : Sim L W K σ} {js : List ℕ}
    (hev : Events (fun k => (setAt pre Z as k).saveCkpt = true)
      (fun k x => (setAt pre Z as k).saveCkpt = true ∧ (setAt pre Z as k).ckptDt ≤ x)
      (clock S.time ((updatesOf as).map (·.dt))) n (js ++ [n]))
    (hst : ∃ ls, timesteps g ((updatesOf as).take n) S s = .ok (M.S, ls, M.rng))
    (snaps : List.Forall₂ (fun k (c : Ckpt L W K σ) => ∃ S' ls s',
      timesteps g ((updatesOf as).take k) S s = .ok (S', ls, s') ∧ HoldsState c S' s') js M.ckpts) :
    CkPart g pre Z as S s n
      { M with ckpt := some (takeCkpt M), ckpts := M.ckpts ++ [takeCkpt M], ckptSince := some 0 } (js ++ [n]) := by
  obtain ⟨ls, h⟩ := hst
  refine ⟨hev, ?_, by simp, by simp⟩
  refine List.rel_append snaps (List.Forall₂.cons ⟨M.S, ls, M.rng, h, ?_⟩ List.Forall₂.nil)
  constructor <;> rfl

/-- The invariant of a session `as` after its first `n` updates. -/
structure OutAInv (g : Rng K σ) (pre : String) (Z : OutSet K) (as : List (OutAct L W m K)) (S : State L W K) (s : σ)
    (n : ℕ) (M : Sim L W K σ) (is js : List ℕ) : Prop where
  state : ∃ ls, timesteps g ((updatesOf as).take n) S s = .ok (M.S, ls, M.rng)
  time : M.S.time = clock S.time ((updatesOf as).map (·.dt)) n
  save : SavePart g pre Z as S s n M is
  ck : CkPart g pre Z as S s n M js

lemma SavePart.congr {g : Rng K σ} {pre : String} {Z : OutSet K} {as : List (OutAct L W m K)} {S : State L W K} {s : σ}
    {n : ℕ} {M M' : Sim L W K σ} {is : List ℕ} (h : SavePart g pre Z as S s n M is) (h1 : M'.saveSince = M.saveSince)
    (h2 : M'.saves = M.saves) (h3 : M'.saveIter = M.saveIter) (h4 : M'.nc = M.nc) (h5 : M'.figFiles = M.figFiles) :
    SavePart g pre Z as S s n M' is := by
  obtain ⟨a1, a2, a3, a4, a5, a6, a7, a8⟩ := h
  constructor
  · exact a1
  · rwa [h2]
  · rwa [h2]
  · rwa [h2, h3]
  · rwa [h1]
  · rwa [h2, h4]
  · rwa [h2, h5]
  · rwa [h2, h5]

/-- The beginning. -/
lemma outA_start (g : Rng K σ) (pre : String) (Z : OutSet K) (as : List (OutAct L W m K)) (S : State L W K) (s : σ) :
    ∃ is js, OutAInv g pre Z as S s 0 (startSim Z.cfg S s) is js := by
  have e0 : setAt pre Z as 0 = Z := by
    unfold setAt
    rw [assignedBefore]
    rfl
  have hst : ∀ M : Sim L W K σ, M.S = S → M.rng = s →
      ∃ ls, timesteps g ((updatesOf as).take 0) S s = .ok (M.S, ls, M.rng) := by
    rintro M rfl rfl
    exact ⟨[], rfl⟩
  have ev : ∀ {start : ℕ → Prop} {D : ℕ → K → Prop} {T : ℕ → K}, start 0 → Events start D T 0 ([] ++ [0]) := by
    intro start D T h
    refine ⟨by simp, ?_, List.IsChain.singleton _, ?_⟩
    · intro a ha
      simp only [List.nil_append, List.head?_cons, Option.mem_def, Option.some.injEq] at ha
      subst ha
      exact ⟨h, fun k hk => by omega⟩
    · intro a ha
      simp only [List.nil_append, List.getLast?_singleton, Option.mem_def, Option.some.injEq] at ha
      subst ha
      exact ⟨le_rfl, fun k hk hk' => by omega⟩
  have hs : SavePart g pre Z as S s 0 (outputData Z.cfg (newSim S s)) ([] ++ [0]) := by
    have := save_fires (g := g) (pre := pre) (Z := Z) (as := as) (S := S) (s := s) (n := 0) (M := newSim S s) (is := [])
      (ev trivial) (hst _ rfl rfl) (by simp [newSim, clock]) List.Forall₂.nil rfl rfl (fun i => by simp [newSim])
      (fun f i => by simp [newSim]) (fun f => by simp [newSim])
    rw [e0] at this
    exact this
  obtain ⟨c1, c2, c3, c4, c5, c6, c7, c8⟩ := outputCheckpoint_frame Z.cfg (outputData Z.cfg (newSim S s))
  obtain ⟨d1, d2, d3, d4, d5, d6⟩ := outputData_frame Z.cfg (newSim S s)
  have hS : (startSim Z.cfg S s).S = S := by
    unfold startSim
    rw [c1, d1]
    rfl
  have hr : (startSim Z.cfg S s).rng = s := by
    unfold startSim
    rw [c2, d2]
    rfl
  obtain ⟨js, hj⟩ : ∃ js, CkPart g pre Z as S s 0 (startSim Z.cfg S s) js := by
    unfold startSim outputCheckpoint
    rw [d4, show due Z.cfg.ckptDt (newSim S s).ckptSince = true from rfl, if_pos rfl]
    split_ifs with hc
    · refine ⟨_, ck_fires (js := []) (ev ?_) (hst _ (by rw [d1]; rfl) (by rw [d2]; rfl)) ?_⟩
      · rw [e0]
        exact hc
      · rw [d6]
        exact List.Forall₂.nil
    · refine ⟨[], ⟨?_, by simp, by simp, by simp⟩, ?_, ?_, ?_⟩
      · intro _ k hk
        obtain rfl : k = 0 := by omega
        rw [e0]
        exact hc
      · rw [d6]
        exact List.Forall₂.nil
      · rw [d4]
        rfl
      · rw [d5, d6]
        rfl
  exact ⟨_, js, hst _ hS hr, by rw [hS]; simp [clock], hs.congr c4 c6 c5 c7 c8, hj⟩

/-- One update. -/
lemma outA_step {g : Rng K σ} {pre : String} {Z : OutSet K} {as : List (OutAct L W m K)} {S : State L W K} {s : σ}
    {n : ℕ} {M M' : Sim L W K σ} {is js : List ℕ} {P : Params L W m K} (h : OutAInv g pre Z as S s n M is js)
    (hP : (updatesOf as)[n]? = some P) (hu : update g (setAt pre Z as (n + 1)).cfg P M = .ok M') :
    ∃ is' js', OutAInv g pre Z as S s (n + 1) M' is' js' := by
  obtain ⟨-, S1, l, s1, ht, rfl⟩ := update_ok hu
  obtain ⟨ls, hls⟩ := h.state
  obtain ⟨hr, hst⟩ := step_result ht
  set T := clock S.time ((updatesOf as).map (·.dt)) with hT
  obtain ⟨hn, hPn⟩ := List.getElem?_eq_some_iff.1 hP
  have hnext : T (n + 1) = T n + P.dt := by
    rw [hT, clock_step _ _ n (by simpa using hn)]
    simp [hPn]
  have hrun : timesteps g ((updatesOf as).take (n + 1)) S s = .ok (S1, ls ++ [l], s1) := by
    rw [List.take_succ_eq_append_getElem hn, hPn]
    exact timesteps_snoc_ok hls ht
  have htime : S1.time = T (n + 1) := by rw [hr.time, hst, h.time, hnext]
  set cfg := (setAt pre Z as (n + 1)).cfg with hcfg
  set M0 : Sim L W K σ := { M with
    S := S1, rng := s1, saveSince := addSince P.dt M.saveSince, ckptSince := addSince P.dt M.ckptSince } with hM0
  have hM' : afterStep cfg P.dt M S1 s1 = outputCheckpoint cfg (outputData cfg M0) := rfl
  rw [hM']
  obtain ⟨d1, d2, d3, d4, d5, d6⟩ := outputData_frame cfg M0
  obtain ⟨c1, c2, c3, c4, c5, c6, c7, c8⟩ := outputCheckpoint_frame cfg (outputData cfg M0)
  have hne : is ≠ [] := fun e => h.save.sched.none e 0 (by omega) trivial
  obtain ⟨a, hla⟩ := last_cases hne
  have hsince : M0.saveSince = some (T (n + 1) - T a) := by
    rw [hM0]
    simp only
    rw [h.save.since a hla, hnext]
    simp only [addSince, Option.some.injEq]
    ring
  obtain ⟨is', hs⟩ : ∃ is', SavePart g pre Z as S s (n + 1) (outputData cfg M0) is' := by
    unfold outputData
    by_cases hd : due cfg.saveDt M0.saveSince = true
    · rw [if_pos hd]
      rw [hsince] at hd
      simp only [due, decide_eq_true_eq] at hd
      refine ⟨_, save_fires (M := M0) (events_fire h.save.sched (fun _ => trivial) ?_) ⟨_, hrun⟩ htime h.save.snaps
        h.save.idx h.save.iter h.save.nc h.save.seq h.save.latest⟩
      intro b hb
      rw [hla, Option.mem_def, Option.some.injEq] at hb
      subst hb
      exact hd
    · rw [if_neg hd]
      rw [hsince] at hd
      simp only [due, decide_eq_true_eq] at hd
      refine ⟨is, events_skip h.save.sched (fun e => absurd e hne) ?_, h.save.snaps, h.save.idx, h.save.iter, ?_, h.save.nc,
        h.save.seq, h.save.latest⟩
      · intro b hb
        rw [hla, Option.mem_def, Option.some.injEq] at hb
        subst hb
        exact hd
      · intro b hb
        rw [hla, Option.mem_def, Option.some.injEq] at hb
        subst hb
        exact hsince
  have hcs : (outputData cfg M0).ckptSince = js.getLast?.map fun a => T (n + 1) - T a := by
    rw [d4, hM0]
    simp only
    rw [h.ck.since, hnext]
    cases js.getLast? with
    | none => rfl
    | some b =>
      simp only [Option.map_some, addSince, Option.some.injEq]
      ring
  obtain ⟨js', hj⟩ : ∃ js', CkPart g pre Z as S s (n + 1) (outputCheckpoint cfg (outputData cfg M0)) js' := by
    have hdue : due cfg.ckptDt (outputData cfg M0).ckptSince = true ↔
        ∀ b ∈ js.getLast?, cfg.ckptDt ≤ T (n + 1) - T b := by
      rw [hcs]
      cases js.getLast? with
      | none => simp [due]
      | some b => simp [due]
    unfold outputCheckpoint
    by_cases hd : due cfg.ckptDt (outputData cfg M0).ckptSince = true
    · rw [if_pos hd]
      rw [hdue] at hd
      split_ifs with hc
      · refine ⟨_, ck_fires (js := js) (events_fire h.ck.sched (fun _ => hc) fun b hb => ⟨hc, hd b hb⟩)
          ⟨ls ++ [l], ?_⟩ ?_⟩
        · rw [d1, d2]
          exact hrun
        · rw [d6]
          exact h.ck.snaps
      · refine ⟨js, events_skip h.ck.sched (fun _ => hc) (fun b hb hD => hc hD.1), ?_, hcs, ?_⟩
        · rw [d6]
          exact h.ck.snaps
        · rw [d5, d6]
          exact h.ck.last
    · rw [if_neg hd]
      rw [hdue] at hd
      push Not at hd
      obtain ⟨b, hb, hlt⟩ := hd
      refine ⟨js, events_skip h.ck.sched (fun e => ?_) (fun c hc hD => ?_), ?_, hcs, ?_⟩
      · subst e
        cases hb
      · rw [Option.mem_def] at hb hc
        rw [hb, Option.some.injEq] at hc
        subst hc
        exact absurd hD.2 (not_le.2 hlt)
      · rw [d6]
        exact h.ck.snaps
      · rw [d5, d6]
        exact h.ck.last
  refine ⟨is', js', ⟨ls ++ [l], ?_⟩, ?_, hs.congr c4 c6 c5 c7 c8, hj⟩
  · rw [c1, d1, c2, d2]
    exact hrun
  · rw [c1, d1]
    exact htime

lemma outA_inv {g : Rng K σ} {Z : OutSet K} {S : State L W K} {s : σ} {all : List (OutAct L W m K)} :
    ∀ {as bs : List (OutAct L W m K)} {X : OutObj L W K σ}, all = as ++ bs →
    outActs g as (startOut Z S s) = .ok X →
    ∃ is js, OutAInv g (startOut Z S s).pre (startOut Z S s).set all S s (updatesOf as).length X.M is js := by
  intro as
  induction as using List.reverseRecOn with
  | nil =>
    rintro bs X rfl h
    cases h
    exact outA_start g _ _ _ S s
  | append_singleton as a ih =>
    intro bs X hall h
    obtain ⟨X1, h1, h2⟩ := outActs_snoc h
    obtain ⟨is, js, hi⟩ := ih (bs := a :: bs) (by rw [hall, List.append_assoc]; rfl) h1
    rw [updatesOf_append]
    cases a with
    | assign a =>
      obtain ⟨Z', -, rfl⟩ := out_act_assign h2
      exact ⟨is, js, by simpa [updatesOf] using hi⟩
    | update P =>
      obtain ⟨M', hu, rfl, -⟩ := out_act_update h2
      rw [show (updatesOf as ++ updatesOf [OutAct.update P]).length = (updatesOf as).length + 1 by simp [updatesOf]]
      have hset := (session_set h1).1
      refine outA_step hi (P := P) ?_ ?_
      · rw [hall, updatesOf_append, updatesOf_append]
        simp [updatesOf]
      · unfold setAt
        rw [hall, List.append_assoc, List.singleton_append, before_update, ← hset]
        exact hu

/-! ### Values in force -/

lemma lastValue_snoc {A : Type*} (p : OutAssign K → Option A) (v : A) (as : List (OutAssign K)) (a : OutAssign K) :
    lastValue p v (as ++ [a]) = (p a).getD (lastValue p v as) := by
  unfold lastValue
  rw [List.filterMap_append]
  cases h : p a <;> simp [h]

lemma ckptValue_snoc (as : List (OutAssign K)) (a : OutAssign K) : ∀ d c : K, ckptValue d c (as ++ [a]) =
    match a with
    | .ckptDt none => lastValue isSaveDt d as
    | .ckptDt (some x) => x
    | _ => ckptValue d c as := by
  induction as with
  | nil =>
    intro d c
    cases a with
    | ckptDt x => cases x <;> simp [ckptValue, lastValue]
    | _ => simp [ckptValue]
  | cons b as ih =>
    intro d c
    have hl : ∀ v, lastValue isSaveDt d (b :: as) = lastValue isSaveDt v as ↔
        lastValue isSaveDt v as = lastValue isSaveDt d (b :: as) := fun v => eq_comm
    have hcons : lastValue isSaveDt d (b :: as) = lastValue isSaveDt ((isSaveDt b).getD d) as := by
      unfold lastValue
      cases hb : isSaveDt b with
      | none => simp [List.filterMap_cons, hb]
      | some v => simp [List.filterMap_cons, hb, List.getLast?_cons]
    rw [hcons, List.cons_append]
    cases b with
    | ckptDt x => cases x <;> simp only [ckptValue, ih, isSaveDt, Option.getD_none]
    | _ => simp only [ckptValue, ih, isSaveDt, Option.getD_none, Option.getD_some]

/-- The settings after assignments. -/
lemma setAfter_values (pre : String) (Z : OutSet K) (as : List (OutAssign K)) :
    (setAfter pre Z as).saveDt = lastValue isSaveDt Z.saveDt as ∧
    (setAfter pre Z as).ckptDt = ckptValue Z.saveDt Z.ckptDt as ∧
    (setAfter pre Z as).saveCkpt = lastValue isSaveCkpt Z.saveCkpt as ∧
    (setAfter pre Z as).sequential = lastValue isSequential Z.sequential as ∧
    (setAfter pre Z as).metadata = lastValue isMetadata Z.metadata as ∧
    (setAfter pre Z as).anyGrids = Z.anyGrids ∧
    (setAfter pre Z as).figList = (as.filterMap isFig).foldl (fun l op => (setFig l op.1 op.2).1) Z.figList := by
  induction as using List.reverseRecOn with
  | nil => exact ⟨rfl, rfl, rfl, rfl, rfl, rfl, rfl⟩
  | append_singleton as a ih =>
    obtain ⟨i1, i2, i3, i4, i5, i6, i7⟩ := ih
    cases h : setOut pre (setAfter pre Z as) a with
    | ok Z' =>
      rw [setAfter_snoc _ _ _ _ h]
      simp only [lastValue_snoc, ckptValue_snoc, List.filterMap_append, List.foldl_append]
      cases a with
      | fig f b =>
        simp only [setOut] at h
        generalize hs : setFig (setAfter pre Z as).figList f b = v at h
        obtain ⟨l, e⟩ := v
        cases e with
        | some e => simp at h
        | none =>
          simp only [Except.ok.injEq] at h
          subst h
          rw [i7] at hs
          simp [isSaveDt, isSaveCkpt, isSequential, isMetadata, isFig, List.filterMap_cons, i1, i2, i3, i4, i5, i6, hs]
      | ckptDt x =>
        simp only [setOut, Except.ok.injEq] at h
        subst h
        cases x <;> simp [isSaveDt, isSaveCkpt, isSequential, isMetadata, isFig, List.filterMap_cons, i1, i2, i3, i4, i5, i6, i7]
      | resume x =>
        cases x <;>
        · simp only [setOut, Except.ok.injEq] at h
          subst h
          simp [isSaveDt, isSaveCkpt, isSequential, isMetadata, isFig, List.filterMap_cons, i1, i2, i3, i4, i5, i6, i7]
      | _ =>
        simp only [setOut, Except.ok.injEq] at h
        subst h
        simp [isSaveDt, isSaveCkpt, isSequential, isMetadata, isFig, List.filterMap_cons, i1, i2, i3, i4, i5, i6, i7]
    | error e =>
      have hk : setAfter pre Z (as ++ [a]) = setAfter pre Z as := by
        unfold setAfter at h ⊢
        rw [List.foldl_append, List.foldl_cons, List.foldl_nil, h]
      rw [hk]
      simp only [lastValue_snoc, ckptValue_snoc, List.filterMap_append, List.foldl_append]
      cases a with
      | fig f b =>
        simp only [setOut] at h
        generalize hs : setFig (setAfter pre Z as).figList f b = v at h
        have hv : v.2 ≠ none → v.1 = (setAfter pre Z as).figList := by
          rw [← hs]
          unfold setFig
          split_ifs <;> simp
        obtain ⟨l, e'⟩ := v
        cases e' with
        | none => simp at h
        | some e' =>
          have := hv (by simp)
          simp only at this
          rw [i7] at hs this
          simp [isSaveDt, isSaveCkpt, isSequential, isMetadata, isFig, List.filterMap_cons, i1, i2, i3, i4, i5, i6, i7, hs, this]
      | resume x => cases x <;> simp [setOut] at h
      | _ => simp [setOut] at h

/-! ### The theorems -/

/-- C108: what is assigned to the settings of output has no influence on the simulation: the fields, the clock and the
random numbers are those of the timesteps alone. -/
theorem C108_fields {g : Rng K σ} {Z : OutSet K} {S : State L W K} {s : σ} {acts : List (OutAct L W m K)}
    {X : OutObj L W K σ} (h : outActs g acts (startOut Z S s) = .ok X) :
    ∃ ls, timesteps g (updatesOf acts) S s = .ok (X.M.S, ls, X.M.rng) := by
  obtain ⟨is, js, hi⟩ := outA_inv (bs := []) (List.append_nil acts).symm h
  obtain ⟨ls, hl⟩ := hi.state
  rw [List.take_length] at hl
  exact ⟨ls, hl⟩

/-- C108: the saves. There is one at the beginning, and then always at the first update at which the `save_dt` assigned
last has gone by since the save before; it shows the model after that update. The output file has it if metadata was
on at that moment, or there are grids. -/
theorem C108_saves {g : Rng K σ} {Z : OutSet K} {S : State L W K} {s : σ} {acts : List (OutAct L W m K)}
    {X : OutObj L W K σ} (h : outActs g acts (startOut Z S s) = .ok X) :
    ∃ is, Events (fun _ => True) (fun k x => lastValue isSaveDt Z.saveDt (assignedBefore acts k) ≤ x)
        (clock S.time ((updatesOf acts).map (·.dt))) (updatesOf acts).length is ∧
      List.Forall₂ (fun k (w : ℕ × Record L W K) => Snapshot g (updatesOf acts) S s k w.2 ∧
        w.2.time = clock S.time ((updatesOf acts).map (·.dt)) k) is X.M.saves ∧
      X.M.saves.map Prod.fst = List.range X.M.saves.length ∧
      ∀ i, X.M.nc i = if ∃ k ∈ is[i]?, Z.anyGrids = true ∨ lastValue isMetadata Z.metadata (assignedBefore acts k) = true
        then (X.M.saves[i]?).map Prod.snd else none := by
  obtain ⟨is, js, hi⟩ := outA_inv (bs := []) (List.append_nil acts).symm h
  have hv := fun k => setAfter_values (startOut Z S s).pre (startOut Z S s).set (assignedBefore acts k)
  refine ⟨is, ?_, hi.save.snaps, hi.save.idx, fun i => ?_⟩
  · have := hi.save.sched
    unfold setAt at this
    simp only [(hv _).1] at this
    exact this
  · rw [hi.save.nc i]
    congr 1
    simp only [OutSet.cfg, setAt, (hv _).2.2.2.2.1, (hv _).2.2.2.2.2.1, Bool.or_eq_true, eq_iff_iff]
    refine exists_congr fun k => and_congr_right fun _ => ?_
    simp only [startOut]
    cases Z.anyGrids <;> simp

/-- C108: the figures. With `ops` the flags of the configuration, save number `i` of a figure is in its own file if the
figure and `save_figs_sequential` were on at that save, and otherwise there is no such file; the file of the latest
shows the last save at which the figure was on and `save_figs_sequential` off.
Partial: this is not so of velocity and sediment flux once velocity figures are switched off, see C54. -/
theorem C108_figures_partial {g : Rng K σ} {Z : OutSet K} {S : State L W K} {s : σ} {acts : List (OutAct L W m K)}
    {X : OutObj L W K σ} (h : outActs g acts (startOut Z S s) = .ok X) {ops : List (FigFlag × Bool)}
    (hZ : Z.figList = figsAfter ops) (f : FigFlag)
    (hf : (f ≠ .velocity ∧ f ≠ .sedflux) ∨ VelocityStays (ops ++ (assignsOf acts).filterMap isFig)) :
    ∃ is, Events (fun _ => True) (fun k x => lastValue isSaveDt Z.saveDt (assignedBefore acts k) ≤ x)
        (clock S.time ((updatesOf acts).map (·.dt))) (updatesOf acts).length is ∧
      List.Forall₂ (fun k (w : ℕ × Record L W K) => Snapshot g (updatesOf acts) S s k w.2) is X.M.saves ∧
      (∀ i, X.M.figFiles (figName true f.entry.1.toList i) =
        if ∃ k ∈ is[i]?, lastValue isSequential Z.sequential (assignedBefore acts k) = true ∧
          lastSet (ops ++ (assignedBefore acts k).filterMap isFig) f = some true
        then (X.M.saves[i]?).map Prod.snd else none) ∧
      ∀ i, X.M.figFiles (figName false f.entry.1.toList i) = (((is.zip X.M.saves).filter fun e =>
        !lastValue isSequential Z.sequential (assignedBefore acts e.1) &&
        decide (lastSet (ops ++ (assignedBefore acts e.1).filterMap isFig) f = some true)).getLast?).map (·.2.2) := by
  obtain ⟨is, js, hi⟩ := outA_inv (bs := []) (List.append_nil acts).symm h
  have hv := fun k => setAfter_values (startOut Z S s).pre (startOut Z S s).set (assignedBefore acts k)
  have hpre : ∀ k, assignedBefore acts k <+: assignsOf acts := by
    intro k
    clear h hi hv hf
    induction acts generalizing k with
    | nil => cases k <;> exact List.prefix_rfl
    | cons a acts ih =>
      cases k with
      | zero => exact List.nil_prefix
      | succ k =>
        cases a with
        | assign a => exact List.cons_prefix_cons.2 ⟨rfl, ih _⟩
        | update P => exact ih k
  have hin : ∀ k, f.entry.1.toList ∈ (setAt (startOut Z S s).pre (startOut Z S s).set acts k).cfg.figs ↔
      lastSet (ops ++ (assignedBefore acts k).filterMap isFig) f = some true := by
    intro k
    have hl : (setAt (startOut Z S s).pre (startOut Z S s).set acts k).figList =
        figsAfter (ops ++ (assignedBefore acts k).filterMap isFig) := by
      unfold setAt
      rw [(hv k).2.2.2.2.2.2]
      unfold figsAfter
      rw [List.foldl_append]
      congr 1
    have hL : Listed (figsAfter (ops ++ (assignedBefore acts k).filterMap isFig)) f.entry
        (lastSet (ops ++ (assignedBefore acts k).filterMap isFig) f = some true) := by
      rcases hf with ⟨h1, h2⟩ | hs
      · exact C54_figs_other_partial _ f h1 h2
      · refine C54_figs_partial _ ?_ f
        refine List.Pairwise.sublist ?_ hs
        exact List.Sublist.append (List.Sublist.refl _) ((hpre k).sublist.filterMap _)
    have hm : f.entry.1.toList ∈ (setAt (startOut Z S s).pre (startOut Z S s).set acts k).cfg.figs ↔
        f.entry.1 ∈ dkeys (setAt (startOut Z S s).pre (startOut Z S s).set acts k).figList := by
      simp only [OutSet.cfg, List.mem_map]
      constructor
      · rintro ⟨x, hx, e⟩
        rwa [← String.toList_injective e]
      · exact fun hx => ⟨_, hx, rfl⟩
    rw [hm, hl, mem_dkeys]
    constructor
    · rintro ⟨v, hv⟩
      by_contra hno
      rw [hL.2 hno] at hv
      cases hv
    · exact fun ho => ⟨_, hL.1 ho⟩
  have hsq : ∀ k, (setAt (startOut Z S s).pre (startOut Z S s).set acts k).sequential =
      lastValue isSequential Z.sequential (assignedBefore acts k) := fun k => (hv k).2.2.2.1
  refine ⟨is, ?_, forall₂_imp_left hi.save.snaps fun _ _ _ hw => hw.1, fun i => ?_, fun i => ?_⟩
  · have := hi.save.sched
    unfold setAt at this
    simp only [(hv _).1] at this
    exact this
  · rw [hi.save.seq]
    simp only [hin, hsq]
  · have := hi.save.latest f.entry.1.toList
    simp only [hin, hsq] at this
    exact this

/-- C108: the checkpoints. The first is at the first update, counting the creation, at which `save_checkpoint` is on,
and then there is one always at the first update at which it is on and the interval in force has gone by since the
checkpoint before. A checkpoint has the fields after its update, and the file has the last one. -/
theorem C108_checkpoints {g : Rng K σ} {Z : OutSet K} {S : State L W K} {s : σ} {acts : List (OutAct L W m K)}
    {X : OutObj L W K σ} (h : outActs g acts (startOut Z S s) = .ok X) :
    ∃ js, Events (fun k => lastValue isSaveCkpt Z.saveCkpt (assignedBefore acts k) = true)
        (fun k x => lastValue isSaveCkpt Z.saveCkpt (assignedBefore acts k) = true ∧
          ckptValue Z.saveDt Z.ckptDt (assignedBefore acts k) ≤ x)
        (clock S.time ((updatesOf acts).map (·.dt))) (updatesOf acts).length js ∧
      List.Forall₂ (fun k (c : Ckpt L W K σ) => ∃ S' ls s',
        timesteps g ((updatesOf acts).take k) S s = .ok (S', ls, s') ∧ HoldsState c S' s') js X.M.ckpts ∧
      X.M.ckpt = X.M.ckpts.getLast? := by
  obtain ⟨is, js, hi⟩ := outA_inv (bs := []) (List.append_nil acts).symm h
  have hv := fun k => setAfter_values (startOut Z S s).pre (startOut Z S s).set (assignedBefore acts k)
  refine ⟨js, ?_, hi.ck.snaps, hi.ck.last⟩
  have := hi.ck.sched
  unfold setAt at this
  simp only [(hv _).2.2.1, (hv _).2.1] at this
  exact this

/-- C108: the interval of checkpoints that is assigned is in force until the next such assignment, whatever else is
assigned. -/
theorem C108_ckpt_assigned (d c x : K) (as bs : List (OutAssign K)) (hb : bs.filterMap isCkptDt = []) :
    ckptValue d c (as ++ .ckptDt (some x) :: bs) = x := by
  induction bs using List.reverseRecOn with
  | nil => rw [ckptValue_snoc]
  | append_singleton bs b ih =>
    rw [List.filterMap_append, List.append_eq_nil_iff] at hb
    rw [← List.cons_append, ← List.append_assoc, ckptValue_snoc]
    cases b with
    | ckptDt y => simp [isCkptDt] at hb
    | _ => exact ih hb.1

/-- C108: with `None` it is the `save_dt` of that moment, and not that of later. -/
theorem C108_ckpt_none (d c : K) (as bs : List (OutAssign K)) (hb : bs.filterMap isCkptDt = []) :
    ckptValue d c (as ++ .ckptDt none :: bs) = lastValue isSaveDt d as := by
  induction bs using List.reverseRecOn with
  | nil => rw [ckptValue_snoc]
  | append_singleton bs b ih =>
    rw [List.filterMap_append, List.append_eq_nil_iff] at hb
    rw [← List.cons_append, ← List.append_assoc, ckptValue_snoc]
    cases b with
    | ckptDt y => simp [isCkptDt] at hb
    | _ => exact ih hb.1

/-- C108 fails: as long as `checkpoint_dt` is not assigned its value is the one found when the model was made, whatever
`save_dt` is assigned. The documentation says that it is `save_dt` if it was not given
(pyDeltaRCM/iteration_tools.py 460-463). -/
theorem C108_ckpt_stale (d c : K) (as : List (OutAssign K)) (ha : as.filterMap isCkptDt = []) : ckptValue d c as = c := by
  induction as using List.reverseRecOn with
  | nil => rfl
  | append_singleton as a ih =>
    rw [List.filterMap_append, List.append_eq_nil_iff] at ha
    rw [ckptValue_snoc]
    cases a with
    | ckptDt y => simp [isCkptDt] at ha
    | _ => exact ih ha.1

/-! ### Settings without effect -/

/-- `out_dir`, `seed`, `resume_checkpoint`, `clobber_netcdf` and `legacy_netcdf`. -/
def unread : OutAssign K → Bool
  | .outDir _ | .seed _ | .resume _ | .clobber _ | .legacy _ => true
  | _ => false

/-- A session without the assignments that are not read. -/
def readOnly : List (OutAct L W m K) → List (OutAct L W m K)
  | [] => []
  | .update P :: r => .update P :: readOnly r
  | .assign a :: r => if unread a then readOnly r else .assign a :: readOnly r

/-- Alike in everything that is read. -/
structure AlikeOut (X Y : OutObj L W K σ) : Prop where
  M : X.M = Y.M
  pre : X.pre = Y.pre
  file : X.hasFile = Y.hasFile
  cfg : X.set.cfg = Y.set.cfg
  list : X.set.figList = Y.set.figList
  info : X.set.metadata = Y.set.metadata
  grids : X.set.anyGrids = Y.set.anyGrids

/-- C108: `out_dir`, `seed`, `resume_checkpoint`, `clobber_netcdf` and `legacy_netcdf` assigned to a model have no effect
at all: the session without these assignments ends with the same error, or with the same model, the same output and
the same folder for it. -/
theorem C108_without_effect (g : Rng K σ) (acts : List (OutAct L W m K)) {X Y : OutObj L W K σ} (hXY : AlikeOut X Y) :
    (outActs g acts X).map (fun X => (X.M, X.pre)) = (outActs g (readOnly acts) Y).map (fun X => (X.M, X.pre)) := by
  induction acts generalizing X Y with
  | nil => simp [outActs, readOnly, Except.map, hXY.M, hXY.pre]
  | cons a acts ih =>
    obtain ⟨XZ, Xp, Xf, XM⟩ := X
    obtain ⟨YZ, Yp, Yf, YM⟩ := Y
    obtain ⟨h1, h2, h3, h4, h5, h6, h7⟩ := hXY
    simp only at h1 h2 h3 h4 h5 h6 h7
    subst h1 h2 h3
    simp only [OutSet.cfg, OutCfg.mk.injEq] at h4
    obtain ⟨k1, k2, k3, k4, k5, k6⟩ := h4
    cases a with
    | update P =>
      have hc : XZ.cfg = YZ.cfg := by simp [OutSet.cfg, k1, k2, k3, k4, k5, k6]
      simp only [outActs, readOnly, outAct, hc, k1]
      cases update g YZ.cfg P XM with
      | error e => rfl
      | ok M' =>
        simp only
        split_ifs
        · rfl
        · exact ih ⟨rfl, rfl, rfl, hc, h5, h6, h7⟩
    | assign a =>
      have hA : ∀ {Z Z' : OutSet K}, Z.saveDt = Z'.saveDt → Z.ckptDt = Z'.ckptDt → Z.saveCkpt = Z'.saveCkpt →
          Z.sequential = Z'.sequential → Z.figList = Z'.figList → Z.metadata = Z'.metadata → Z.anyGrids = Z'.anyGrids →
          AlikeOut (⟨Z, Xp, Xf, XM⟩ : OutObj L W K σ) ⟨Z', Xp, Xf, XM⟩ := by
        intro Z Z' a1 a2 a3 a4 a5 a6 a7
        exact ⟨rfl, rfl, rfl, by simp [OutSet.cfg, a1, a2, a3, a4, a5, a6, a7], a5, a6, a7⟩
      cases a with
      | fig f b =>
        simp only [outActs, readOnly, unread, outAct, setOut, h5, Bool.false_eq_true, if_false]
        generalize setFig YZ.figList f b = v
        obtain ⟨l, e⟩ := v
        cases e with
        | some e => rfl
        | none => exact ih (hA k1 k2 k3 k6 rfl h6 h7)
      | resume x =>
        cases x <;> exact ih (hA k1 k2 k3 k6 h5 h6 h7)
      | ckptDt x => exact ih (hA k1 (by simp only [k1]) k3 k6 h5 h6 h7)
      | saveDt x => exact ih (hA rfl k2 k3 k6 h5 h6 h7)
      | saveCkpt b => exact ih (hA k1 k2 rfl k6 h5 h6 h7)
      | sequential b => exact ih (hA k1 k2 k3 rfl h5 h6 h7)
      | metadata b => exact ih (hA k1 k2 k3 k6 h5 rfl h7)
      | _ => exact ih (hA k1 k2 k3 k6 h5 h6 h7)

/-- C108: in particular the folder of the output stays the one of the configuration. -/
theorem C108_folder {g : Rng K σ} {Z : OutSet K} {S : State L W K} {s : σ} {acts : List (OutAct L W m K)}
    {X : OutObj L W K σ} (h : outActs g acts (startOut Z S s) = .ok X) : X.pre = Z.outDir :=
  (session_set h).2.1

/-! ### Errors -/

lemma session_fin {g : Rng K σ} {as : List (OutAct L W m K)} {X X' : OutObj L W K σ} (h : outActs g as X = .ok X')
    (hf : X.M.finalized = false) : X'.M.finalized = false := by
  induction as using List.reverseRecOn generalizing X' with
  | nil =>
    cases h
    exact hf
  | append_singleton as a ih =>
    obtain ⟨X1, h1, h2⟩ := outActs_snoc h
    cases a with
    | assign a =>
      obtain ⟨Z, -, rfl⟩ := out_act_assign h2
      show X1.M.finalized = false
      exact ih h1
    | update P =>
      obtain ⟨M', hu, rfl, -⟩ := out_act_update h2
      obtain ⟨hf, S1, l, s1, -, rfl⟩ := update_ok hu
      obtain ⟨d1, d2, d3, d4, d5, d6⟩ := outputData_frame X1.set.cfg { X1.M with
        S := S1, rng := s1, saveSince := addSince P.dt X1.M.saveSince, ckptSince := addSince P.dt X1.M.ckptSince }
      obtain ⟨-, -, c3, -⟩ := outputCheckpoint_frame X1.set.cfg (outputData X1.set.cfg { X1.M with
        S := S1, rng := s1, saveSince := addSince P.dt X1.M.saveSince, ckptSince := addSince P.dt X1.M.ckptSince })
      exact c3.trans (d3.trans hf)

/-- A save is due if the interval assigned last has gone by since the last save. -/
lemma session_due {g : Rng K σ} {Z : OutSet K} {S : State L W K} {s : σ} {acts : List (OutAct L W m K)}
    {X : OutObj L W K σ} (h : outActs g acts (startOut Z S s) = .ok X) {P : Params L W m K} {S' : State L W K}
    {l : StepLog L W K} {s' : σ} (ht : timestep g P X.M.S X.M.rng = .ok (S', l, s')) :
    ∃ r, X.M.saves.getLast? = some r ∧ due X.set.saveDt (addSince P.dt X.M.saveSince) =
      decide (lastValue isSaveDt Z.saveDt (assignsOf acts) ≤ S'.time - r.2.time) := by
  obtain ⟨h1, h2, h3⟩ := session_set h
  have hv := setAfter_values (startOut Z S s).pre (startOut Z S s).set (assignsOf acts)
  obtain ⟨is, js, hi⟩ := outA_inv (bs := []) (List.append_nil acts).symm h
  have hne : is ≠ [] := fun e => hi.save.sched.none e 0 (by omega) trivial
  obtain ⟨a, hla⟩ := last_cases hne
  obtain ⟨hr, hst⟩ := step_result ht
  rw [hi.save.since a hla]
  have hlen := hi.save.snaps.length_eq
  obtain ⟨is', rfl⟩ : ∃ is', is = is' ++ [a] := List.getLast?_eq_some_iff.1 hla
  have hsn : X.M.saves ≠ [] := by
    intro e
    rw [e] at hlen
    simp at hlen
  obtain ⟨r, hr'⟩ : ∃ r, X.M.saves.getLast? = some r := by
    rw [← Option.isSome_iff_exists]
    simpa using hsn
  obtain ⟨rs, hrs⟩ := List.getLast?_eq_some_iff.1 hr'
  have hsn := hi.save.snaps
  rw [hrs] at hsn hlen
  have hla' : is'.length = rs.length := by simpa using hlen
  have hta : r.2.time = clock S.time ((updatesOf acts).map (·.dt)) a := by
    have := List.forall₂_iff_get.1 hsn
    have h2 := this.2 is'.length (by simp) (by simp [hla'])
    simp only [List.get_eq_getElem, List.getElem_concat_length, hla'] at h2
    exact h2.2
  refine ⟨r, hr', ?_⟩
  rw [hr.time, hst, hi.time, hta]
  simp only [addSince, due, h1, hv.1]
  congr 1
  rw [show ∀ x y z : K, x + y - z = x - z + y from fun x y z => by ring]
  rfl

/-- C108: an update of which the timestep succeeds ends without error if the model was made with an output file,
or metadata is off, or no save is due. -/
theorem C108_update_ok {g : Rng K σ} {Z : OutSet K} {S : State L W K} {s : σ} {acts : List (OutAct L W m K)}
    {X : OutObj L W K σ} (h : outActs g acts (startOut Z S s) = .ok X) {P : Params L W m K} {S' : State L W K}
    {l : StepLog L W K} {s' : σ} (ht : timestep g P X.M.S X.M.rng = .ok (S', l, s'))
    (hm : (Z.metadata = true ∨ Z.anyGrids = true ∨ lastValue isMetadata false (assignsOf acts) = false) ∨
      ∀ r ∈ X.M.saves.getLast?, S'.time - r.2.time < lastValue isSaveDt Z.saveDt (assignsOf acts)) :
    ∃ X', outAct g X (.update P) = .ok X' ∧ X'.M.S = S' ∧ X'.M.rng = s' := by
  have hfin : X.M.finalized = false := by
    refine session_fin h ?_
    exact ((outputCheckpoint_frame _ _).2.2.1).trans ((outputData_frame _ _).2.2.1)
  obtain ⟨h1, h2, h3⟩ := session_set h
  have hv := setAfter_values (startOut Z S s).pre (startOut Z S s).set (assignsOf acts)
  have e1 : X.set.metadata = lastValue isMetadata (Z.metadata || Z.anyGrids) (assignsOf acts) := by
    rw [h1]
    exact hv.2.2.2.2.1
  have e2 : X.set.anyGrids = Z.anyGrids := by
    rw [h1]
    exact hv.2.2.2.2.2.1
  have e3 : X.hasFile = (Z.metadata || Z.anyGrids || Z.anyGrids) := h3
  have hno : (due X.set.saveDt (addSince P.dt X.M.saveSince) && (X.set.cfg.saveNc && !X.hasFile)) = false := by
    rcases hm with hm | hm
    · rw [Bool.and_eq_false_iff]
      right
      simp only [OutSet.cfg, e1, e2, e3]
      cases hM : Z.metadata with
      | true => simp
      | false =>
        cases hG : Z.anyGrids with
        | true => simp
        | false =>
          simp only [hM, hG, Bool.false_eq_true, false_or] at hm
          simp [hm]
    · obtain ⟨r, hr, hdue⟩ := session_due h ht
      rw [hdue, decide_eq_false (not_le.2 (hm r hr))]
      rfl
  have hu : update g X.set.cfg P X.M = .ok (afterStep X.set.cfg P.dt X.M S' s') := by
    unfold update
    rw [hfin]
    simp [ht]
  refine ⟨{ X with M := afterStep X.set.cfg P.dt X.M S' s' }, ?_, ?_, ?_⟩
  · simp only [outAct, hu]
    simp only [Bool.and_assoc, hno, Bool.false_eq_true, if_false]
  · exact ((outputCheckpoint_frame _ _).1).trans ((outputData_frame _ _).1)
  · exact ((outputCheckpoint_frame _ _).2.1).trans ((outputData_frame _ _).2.1)

/-- C108 fails: if the model was made without output file and `save_metadata` is then switched on, the next update at which
a save is due raises an error. -/
theorem C108_no_file {g : Rng K σ} {Z : OutSet K} {S : State L W K} {s : σ} {acts : List (OutAct L W m K)}
    {X : OutObj L W K σ} (h : outActs g acts (startOut Z S s) = .ok X) {P : Params L W m K} {S' : State L W K}
    {l : StepLog L W K} {s' : σ} (ht : timestep g P X.M.S X.M.rng = .ok (S', l, s'))
    (hM : Z.metadata = false) (hG : Z.anyGrids = false) (hm : lastValue isMetadata false (assignsOf acts) = true)
    (hd : ∀ r ∈ X.M.saves.getLast?, lastValue isSaveDt Z.saveDt (assignsOf acts) ≤ S'.time - r.2.time) :
    outAct g X (.update P) = .error .noFile := by
  have hfin : X.M.finalized = false := by
    refine session_fin h ?_
    exact ((outputCheckpoint_frame _ _).2.2.1).trans ((outputData_frame _ _).2.2.1)
  obtain ⟨h1, h2, h3⟩ := session_set h
  have hv := setAfter_values (startOut Z S s).pre (startOut Z S s).set (assignsOf acts)
  have hu : update g X.set.cfg P X.M = .ok (afterStep X.set.cfg P.dt X.M S' s') := by
    unfold update
    rw [hfin]
    simp [ht]
  have hdue : due X.set.saveDt (addSince P.dt X.M.saveSince) = true := by
    obtain ⟨r, hr, hdue⟩ := session_due h ht
    rw [hdue, decide_eq_true (hd r hr)]
  have e1 : X.set.metadata = lastValue isMetadata (Z.metadata || Z.anyGrids) (assignsOf acts) := by
    rw [h1]
    exact hv.2.2.2.2.1
  have e2 : X.set.anyGrids = Z.anyGrids := by
    rw [h1]
    exact hv.2.2.2.2.2.1
  have e3 : X.hasFile = (Z.metadata || Z.anyGrids || Z.anyGrids) := h3
  have hno : (X.set.cfg.saveNc && !X.hasFile) = true := by
    simp [OutSet.cfg, e1, e2, e3, hM, hG, hm]
  simp only [outAct, hu]
  simp only [Bool.and_assoc, hno, hdue, Bool.and_self, if_true]

/-- C108: a session of which the timesteps succeed ends without error, if no velocity figures are switched off and metadata
is switched on only in a model made with an output file.
Partial: without these conditions it may fail, see `C54_velocity_error` and `C108_no_file`. -/
theorem C108_succeeds_partial {g : Rng K σ} {Z : OutSet K} {S : State L W K} {s : σ} {acts : List (OutAct L W m K)}
    {S' : State L W K} {ls : List (StepLog L W K)} {s' : σ} (h : timesteps g (updatesOf acts) S s = .ok (S', ls, s'))
    (hv : OutAssign.fig .velocity false ∉ assignsOf acts)
    (hm : Z.metadata = true ∨ Z.anyGrids = true ∨ OutAssign.metadata true ∉ assignsOf acts) :
    ∃ X, outActs g acts (startOut Z S s) = .ok X := by
  induction acts using List.reverseRecOn generalizing S' ls s' with
  | nil => exact ⟨_, rfl⟩
  | append_singleton as a ih =>
    rw [assignsOf_append] at hv hm
    have hv1 : OutAssign.fig .velocity false ∉ assignsOf as := fun hx => hv (List.mem_append_left _ hx)
    have hm1 : Z.metadata = true ∨ Z.anyGrids = true ∨ OutAssign.metadata true ∉ assignsOf as :=
      hm.imp_right (Or.imp_right fun hx hy => hx (List.mem_append_left _ hy))
    have hsn : ∀ {X X' : OutObj L W K σ}, outActs g as (startOut Z S s) = .ok X → outAct g X a = .ok X' →
        outActs g (as ++ [a]) (startOut Z S s) = .ok X' := by
      intro X X' h1 h2
      clear ih h hv hm hv1 hm1
      generalize startOut Z S s = Y at h1 ⊢
      induction as generalizing Y with
      | nil =>
        cases h1
        simp only [List.nil_append, outActs, h2]
      | cons b as ih =>
        simp only [List.cons_append, outActs] at h1 ⊢
        cases hu : outAct g Y b with
        | error e => simp [hu] at h1
        | ok Y1 =>
          simp only [hu] at h1 ⊢
          exact ih _ h1
    rw [updatesOf_append] at h
    cases a with
    | update P =>
      rw [show updatesOf [OutAct.update P] = [P] from rfl] at h
      obtain ⟨S1, ls1, l, s1, h1, h2, rfl⟩ := timesteps_snoc h
      obtain ⟨X, hX⟩ := ih h1 hv1 hm1
      obtain ⟨ls2, h3⟩ := C108_fields hX
      rw [h1, Except.ok.injEq, Prod.mk.injEq, Prod.mk.injEq] at h3
      obtain ⟨rfl, -, rfl⟩ := h3
      obtain ⟨X', hX', -⟩ := C108_update_ok hX h2 (.inl <| hm1.imp_right (Or.imp_right fun hx => by
        unfold lastValue
        cases hl : (List.filterMap isMetadata (assignsOf as)).getLast? with
        | none => rfl
        | some b =>
          cases b with
          | false => rfl
          | true =>
            obtain ⟨c, hc, hc2⟩ := List.mem_filterMap.1 (List.mem_of_getLast? hl)
            cases c <;> simp [isMetadata] at hc2
            subst hc2
            exact absurd hc hx))
      exact ⟨X', hsn hX hX'⟩
    | assign a =>
      rw [show updatesOf [OutAct.assign a] = ([] : List (Params L W m K)) from rfl, List.append_nil] at h
      obtain ⟨X, hX⟩ := ih h hv1 hm1
      obtain ⟨Z', hZ'⟩ : ∃ Z', setOut X.pre X.set a = .ok Z' := by
        cases a with
        | fig f b =>
          simp only [setOut]
          have : (setFig X.set.figList f b).2 = none := by
            unfold setFig
            split_ifs with h1 h2 h3
            · rfl
            · rfl
            · have hd : f.deleted = f.entry.1 := by
                have : f ≠ .velocity := by
                  rintro rfl
                  rw [h2.1] at hv
                  exact hv (List.mem_append_right _ (by simp [assignsOf]))
                revert this
                cases f <;> decide
              exact absurd (hd ▸ h2.2) h3
            · rfl
          generalize setFig X.set.figList f b = v at this ⊢
          obtain ⟨l, e⟩ := v
          simp only at this
          subst this
          exact ⟨_, rfl⟩
        | resume x => cases x <;> exact ⟨_, rfl⟩
        | _ => exact ⟨_, rfl⟩
      refine ⟨{ X with set := Z' }, hsn hX ?_⟩
      simp only [outAct, hZ']

/-! ### Example -/

/-- Settings of output. -/
def exOutSet : OutSet ℚ where
  saveDt := 3
  ckptDt := 3
  saveCkpt := true
  sequential := true
  metadata := false
  anyGrids := true
  figList := [("eta", "eta")]
  outDir := "out"
  seed := 1
  resume := false
  folder := "out"
  clobber := false
  legacy := false

/-- After four updates the interval of saves is shortened, the figures of depth are switched on and another folder is
assigned. -/
def exSession : List (OutAct 4 3 1 ℚ) :=
  [.update exParams, .update exParams, .update exParams, .update exParams, .assign (.saveDt 1),
    .assign (.fig .depth true), .assign (.outDir "elsewhere"), .update exParams, .update exParams]

-- the saves are after updates 0, 3, 5 and 6, the checkpoints still after 0, 3 and 6; the figures of depth begin with the
-- third save and the output stays in its folder
example : ∃ X, outActs constRng exSession (startOut exOutSet exState ()) = .ok X ∧
    X.M.saves.map (fun w => w.2.time) = [0, 3, 5, 6] ∧ X.M.ckpts.map (·.time) = [0, 3, 6] ∧ X.pre = "out" ∧
    X.M.figFiles "depth_00001.png".toList = none ∧ X.M.figFiles "depth_00002.png".toList ≠ none := by
  obtain ⟨S', ls, s', h⟩ := C71_run (g := constRng) exPositive (S := exState) (Ps := List.replicate 6 exParams)
    (fun Q hQ => by rw [List.eq_of_mem_replicate hQ]; exact ⟨exSetup, exSedDomain, by norm_num [exParams]⟩)
    (by decide +kernel) (by decide) ()
  obtain ⟨X, hX⟩ := C108_succeeds_partial (g := constRng) (Z := exOutSet) (S := exState) (s := ()) (acts := exSession) h
    (by simp [assignsOf, exSession]) (Or.inr (Or.inl rfl))
  have hT : ∀ k ≤ 6, clock exState.time ((updatesOf exSession).map (·.dt)) k = k := by
    decide +kernel
  have hS : ∀ k ≤ 6, lastValue isSaveDt exOutSet.saveDt (assignedBefore exSession k) = if k ≤ 4 then 3 else 1 := by
    decide +kernel
  have hC : ∀ k ≤ 6, ckptValue exOutSet.saveDt exOutSet.ckptDt (assignedBefore exSession k) = 3 := by
    decide +kernel
  have hO : ∀ k ≤ 6, lastValue isSaveCkpt exOutSet.saveCkpt (assignedBefore exSession k) = true := by
    decide +kernel
  obtain ⟨is, h1, h2, -, -⟩ := C108_saves hX
  obtain ⟨js, h3, h4, -⟩ := C108_checkpoints hX
  obtain ⟨is', h5, h6, h7, -⟩ := C108_figures_partial hX (ops := [(.eta, true)]) (by decide) .depth (Or.inl (by decide))
  have hn : (updatesOf exSession).length = 6 := rfl
  rw [hn] at h1 h3 h5
  have e1 : is = [0, 3, 5, 6] := by
    refine C108_schedule_unique h1 ⟨by simp, ?_, ?_, ?_⟩
    · intro a ha
      simp only [List.head?_cons, Option.mem_def, Option.some.injEq] at ha
      subst ha
      exact ⟨trivial, fun k hk => by omega⟩
    · simp only [List.isChain_cons_cons, List.IsChain.singleton, and_true]
      refine ⟨⟨by omega, ?_, ?_⟩, ⟨by omega, ?_, ?_⟩, by omega, ?_, ?_⟩
      · rw [hS 3 (by omega), hT 3 (by omega), hT 0 (by omega)]; norm_num
      · intro k hk hk'
        rw [hS k (by omega), hT k (by omega), hT 0 (by omega)]
        interval_cases k <;> norm_num
      · rw [hS 5 (by omega), hT 5 (by omega), hT 3 (by omega)]; norm_num
      · intro k hk hk'
        rw [hS k (by omega), hT k (by omega), hT 3 (by omega)]
        interval_cases k; norm_num
      · rw [hS 6 (by omega), hT 6 (by omega), hT 5 (by omega)]; norm_num
      · intro k hk hk'
        omega
    · intro a ha
      simp only [List.getLast?_cons_cons, List.getLast?_singleton, Option.mem_def, Option.some.injEq] at ha
      subst ha
      exact ⟨le_rfl, fun k hk hk' => by omega⟩
  have e2 : js = [0, 3, 6] := by
    refine C108_schedule_unique h3 ⟨by simp, ?_, ?_, ?_⟩
    · intro a ha
      simp only [List.head?_cons, Option.mem_def, Option.some.injEq] at ha
      subst ha
      exact ⟨hO 0 (by omega), fun k hk => by omega⟩
    · simp only [List.isChain_cons_cons, List.IsChain.singleton, and_true]
      refine ⟨⟨by omega, ⟨hO 3 (by omega), ?_⟩, ?_⟩, by omega, ⟨hO 6 (by omega), ?_⟩, ?_⟩
      · rw [hC 3 (by omega), hT 3 (by omega), hT 0 (by omega)]; norm_num
      · intro k hk hk'
        rw [hC k (by omega), hT k (by omega), hT 0 (by omega)]
        interval_cases k <;> norm_num
      · rw [hC 6 (by omega), hT 6 (by omega), hT 3 (by omega)]; norm_num
      · intro k hk hk'
        rw [hC k (by omega), hT k (by omega), hT 3 (by omega)]
        interval_cases k <;> norm_num
    · intro a ha
      simp only [List.getLast?_cons_cons, List.getLast?_singleton, Option.mem_def, Option.some.injEq] at ha
      subst ha
      exact ⟨le_rfl, fun k hk hk' => by omega⟩
  obtain rfl : is' = is := C108_schedule_unique h5 h1
  subst e1 e2
  have hlen := h2.length_eq
  refine ⟨X, hX, ?_, ?_, C108_folder hX, ?_, ?_⟩
  · have : X.M.saves.map (fun w => w.2.time) =
        [0, 3, 5, 6].map (clock exState.time ((updatesOf exSession).map (·.dt))) := by
      rw [← List.forall₂_eq_eq_eq, List.forall₂_map_left_iff, List.forall₂_map_right_iff]
      exact List.Forall₂.flip (forall₂_imp_left h2 fun _ _ _ hw => hw.2)
    rw [this]
    decide +kernel
  · have : X.M.ckpts.map (·.time) = [0, 3, 6].map (clock exState.time ((updatesOf exSession).map (·.dt))) := by
      rw [← List.forall₂_eq_eq_eq, List.forall₂_map_left_iff, List.forall₂_map_right_iff]
      refine List.Forall₂.flip (forall₂_imp_left h4 ?_)
      rintro k - c ⟨S1, l1, s1, hr, hc⟩
      show c.time = _
      rw [hc.time, (C35_sums hr).1, List.map_take]
      rfl
    rw [this]
    decide +kernel
  · have := h7 1
    rw [if_neg] at this
    · exact this
    · decide +kernel
  · have := h7 2
    rw [if_pos] at this
    · show X.M.figFiles (figName true FigFlag.depth.entry.1.toList 2) ≠ none
      rw [this, List.getElem?_eq_getElem (by rw [← hlen]; decide)]
      simp
    · decide +kernel

end Verif.Props
