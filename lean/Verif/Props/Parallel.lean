import Verif.Model.Parallel
import Mathlib.Algebra.BigOperators.Fin
import Mathlib.Algebra.Order.BigOperators.Group.Finset
import Mathlib.Tactic.Linarith

/-!
# C64: parallel jobs
-/

set_option linter.unusedSectionVars false
set_option linter.unusedSimpArgs false

namespace Verif.Props

open Verif.Model

variable {n : ℕ}

/-- Specification: the jobs between start and release of the semaphore. -/
def runningJobs (w : World n) : Finset (Fin n) :=
  Finset.univ.filter (fun i => (w.child i).acts.isEmpty = false)

/-- Specification: reports name their job. -/
def Tagged (fate : Fin n → Option (List Report)) : Prop :=
  ∀ i rs, fate i = some rs → ∀ r ∈ rs, r.job = i

/-- Specification: what was read from a job. -/
def gotFrom (w : World n) (i : Fin n) : List Report := w.got.filter (fun r => decide (r.job = (i : ℕ)))

/-- How many jobs the parent has started. -/
def startedUpTo (n : ℕ) : Phase → ℕ
  | .acquire i | .make i | .raised i => i
  | .join _ | .drain | .done => n

/-- The reports still to be put. -/
def putsOf : List ProcAct → List Report
  | [] => []
  | .put r :: as => r :: putsOf as
  | .release :: as => putsOf as

lemma putsOf_script (rs : List Report) : putsOf (rs.map .put ++ [.release]) = rs := by
  induction rs with
  | nil => rfl
  | cons r rs ih => simp [putsOf, ih]

/-- The actions left are of a script. -/
def ScriptLeft (as : List ProcAct) : Prop := as = [] ∨ ∃ rs : List Report, as = rs.map .put ++ [.release]

lemma scriptLeft_put {r : Report} {as : List ProcAct} (h : ScriptLeft (.put r :: as)) :
    ScriptLeft as ∧ as ≠ [] := by
  rcases h with h | ⟨rs, h⟩
  · cases h
  · cases rs with
    | nil => simp at h
    | cons r' rs =>
      simp only [List.map_cons, List.cons_append, List.cons.injEq] at h
      refine ⟨Or.inr ⟨rs, h.2⟩, ?_⟩
      rw [h.2]; simp

lemma scriptLeft_release {as : List ProcAct} (h : ScriptLeft (.release :: as)) : as = [] := by
  rcases h with h | ⟨rs, h⟩
  · cases h
  · cases rs with
    | nil => simpa using h
    | cons r' rs => simp at h

/-- A function of the children, summed up. -/
lemma sum_update (f : Child → ℕ) (c : Fin n → Child) (i : Fin n) (x : Child) :
    ∑ k, f (Function.update c i x k) + f (c i) = ∑ k, f (c k) + f x := by
  have h1 : ∑ k, f (Function.update c i x k) =
      f x + ∑ k ∈ Finset.univ.erase i, f (c k) := by
    rw [← Finset.add_sum_erase _ _ (Finset.mem_univ i), Function.update_self]
    congr 1
    refine Finset.sum_congr rfl ?_
    intro k hk
    rw [Function.update_of_ne (Finset.ne_of_mem_erase hk)]
  have h2 : ∑ k, f (c k) = f (c i) + ∑ k ∈ Finset.univ.erase i, f (c k) :=
    (Finset.add_sum_erase _ _ (Finset.mem_univ i)).symm
  omega

/-- One if the process holds the semaphore. -/
def holds (c : Child) : ℕ := if c.acts.isEmpty then 0 else 1

/-- One if the parent holds the semaphore. -/
def parentHolds : Phase → ℕ
  | .make _ => 1
  | .raised _ => 1
  | _ => 0

lemma card_running (w : World n) : (runningJobs w).card = ∑ i, holds (w.child i) := by
  unfold runningJobs
  rw [Finset.card_filter]
  refine Finset.sum_congr rfl ?_
  intro i _
  unfold holds
  cases (w.child i).acts.isEmpty <;> simp

/-- What holds in every state. -/
structure WorldInv (fate : Fin n → Option (List Report)) (cap limit : ℕ) (w : World n) : Prop where
  idle : ∀ i : Fin n, startedUpTo n w.phase ≤ i → w.child i = ⟨0, [], [], false⟩
  live : ∀ i : Fin n, (i : ℕ) < startedUpTo n w.phase →
    (w.child i).starts = 1 ∧ (∃ rs, fate i = some rs) ∧ ScriptLeft (w.child i).acts ∧
    ((w.child i).exited = true → (w.child i).acts = [] ∧ (w.child i).buf = [])
  flow : ∀ i : Fin n, (w.got ++ w.pipe).filter (fun r => decide (r.job = (i : ℕ))) ++ (w.child i).buf ++
    putsOf (w.child i).acts = if (i : ℕ) < startedUpTo n w.phase then (fate i).getD [] else []
  job : ∀ r ∈ w.got ++ w.pipe, r.job < n
  sema : w.sema + ∑ i, holds (w.child i) + parentHolds w.phase = limit
  acq : ∀ i, w.phase = .acquire i → i < n
  mak : ∀ i, w.phase = .make i → i < n
  joi : ∀ i, w.phase = .join i → i < n ∧ ∀ k : Fin n, (k : ℕ) < i → (w.child k).exited = true
  dra : w.phase = .drain ∨ w.phase = .done → ∀ k : Fin n, (w.child k).exited = true
  rai : ∀ i, w.phase = .raised i → ∃ h : i < n, fate ⟨i, h⟩ = none
  empty : w.phase ≠ .drain → w.phase ≠ .done → w.got = []
  room : w.got.length + w.pipe.length ≤ cap
  fin : w.phase = .done → w.pipe = []

lemma inv_init (fate : Fin n → Option (List Report)) (cap limit : ℕ) (hn : 0 < n) :
    WorldInv fate cap limit (World.init n limit) where
  idle _ _ := rfl
  live i hi := by simp [World.init, startedUpTo] at hi
  flow i := by simp [World.init, putsOf, startedUpTo]
  job r hr := by simp [World.init] at hr
  sema := by simp [World.init, holds, parentHolds]
  acq i hi := by simp [World.init] at hi; omega
  mak i hi := by simp [World.init] at hi
  joi i hi := by simp [World.init] at hi
  dra hi := by simp [World.init] at hi
  rai i hi := by simp [World.init] at hi
  empty _ _ := rfl
  room := by simp [World.init]
  fin hi := by simp [World.init] at hi

lemma live_of_acts {fate : Fin n → Option (List Report)} {cap limit : ℕ} {w : World n}
    (h : WorldInv fate cap limit w) {i : Fin n} (ha : (w.child i).acts ≠ []) :
    (i : ℕ) < startedUpTo n w.phase := by
  by_contra hc
  rw [h.idle i (by omega)] at ha
  exact ha rfl

lemma live_of_buf {fate : Fin n → Option (List Report)} {cap limit : ℕ} {w : World n}
    (h : WorldInv fate cap limit w) {i : Fin n} (ha : (w.child i).buf ≠ []) :
    (i : ℕ) < startedUpTo n w.phase := by
  by_contra hc
  rw [h.idle i (by omega)] at ha
  exact ha rfl

lemma not_drained {fate : Fin n → Option (List Report)} {cap limit : ℕ} {w : World n}
    (h : WorldInv fate cap limit w) {i : Fin n}
    (ha : ¬ ((w.child i).acts = [] ∧ (w.child i).buf = [])) :
    (w.child i).exited = false ∧ w.phase ≠ .drain ∧ w.phase ≠ .done := by
  have hi : (i : ℕ) < startedUpTo n w.phase := by
    by_contra hc
    rw [h.idle i (by omega)] at ha
    exact ha ⟨rfl, rfl⟩
  have he : (w.child i).exited = false := by
    cases hx : (w.child i).exited with
    | false => rfl
    | true => exact absurd ((h.live i hi).2.2.2 hx) ha
  refine ⟨he, ?_, ?_⟩
  · intro hd
    rw [h.dra (Or.inl hd) i] at he; cases he
  · intro hd
    rw [h.dra (Or.inr hd) i] at he; cases he

/-- Changes of one process that has not ended. -/
lemma inv_child {fate : Fin n → Option (List Report)} {cap limit : ℕ} {w : World n}
    (h : WorldInv fate cap limit w) (i : Fin n) (c : Child) (sema : ℕ) (pipe : List Report)
    (hi : (i : ℕ) < startedUpTo n w.phase)
    (hstarts : c.starts = 1) (hs : ScriptLeft c.acts) (hex : c.exited = true → c.acts = [] ∧ c.buf = [])
    (hmono : (w.child i).exited = true → c.exited = true)
    (hflow : (w.got ++ pipe).filter (fun r => decide (r.job = (i : ℕ))) ++ c.buf ++ putsOf c.acts =
      (w.got ++ w.pipe).filter (fun r => decide (r.job = (i : ℕ))) ++ (w.child i).buf ++
        putsOf (w.child i).acts)
    (hother : ∀ k : Fin n, k ≠ i → pipe.filter (fun r => decide (r.job = (k : ℕ))) =
      w.pipe.filter (fun r => decide (r.job = (k : ℕ))))
    (hjob : ∀ r ∈ pipe, r.job < n)
    (hsema : sema + holds c = w.sema + holds (w.child i))
    (hroom : w.got.length + pipe.length ≤ cap) (hpipe : w.phase = .done → pipe = []) :
    WorldInv fate cap limit { w with sema := sema, child := Function.update w.child i c, pipe := pipe } where
  idle k hk := by
    have : k ≠ i := by rintro rfl; simp only at hk; omega
    simp only [Function.update_of_ne this]
    exact h.idle k hk
  live k hk := by
    by_cases e : k = i
    · subst e
      simp only [Function.update_self]
      exact ⟨hstarts, (h.live k hi).2.1, hs, hex⟩
    · simp only [Function.update_of_ne e]
      exact h.live k hk
  flow k := by
    by_cases e : k = i
    · subst e
      simp only [Function.update_self]
      rw [hflow]
      exact h.flow k
    · simp only [Function.update_of_ne e]
      rw [List.filter_append, hother k e, ← List.filter_append]
      exact h.flow k
  job r hr := by
    rcases List.mem_append.1 hr with hr | hr
    · exact h.job r (List.mem_append_left _ hr)
    · exact hjob r hr
  sema := by
    have := sum_update holds w.child i c
    have := h.sema
    simp only
    omega
  acq := h.acq
  mak := h.mak
  joi k hk := by
    refine ⟨(h.joi k hk).1, ?_⟩
    intro l hl
    by_cases e : l = i
    · subst e
      simp only [Function.update_self]
      exact hmono ((h.joi k hk).2 l hl)
    · simp only [Function.update_of_ne e]
      exact (h.joi k hk).2 l hl
  dra hd l := by
    by_cases e : l = i
    · subst e
      simp only [Function.update_self]
      exact hmono (h.dra hd l)
    · simp only [Function.update_of_ne e]
      exact h.dra hd l
  rai := h.rai
  empty := h.empty
  room := hroom
  fin := hpipe

lemma inv_step {fate : Fin n → Option (List Report)} (ht : Tagged fate) {cap limit : ℕ} {w v : World n}
    (h : WorldInv fate cap limit w) (hs : ProcStep fate cap w v) : WorldInv fate cap limit v := by
  cases hs with
  | acquire i hp hs =>
    refine ⟨?_, ?_, ?_, h.job, ?_, ?_, ?_, ?_, ?_, ?_, ?_, h.room, ?_⟩
    · intro k hk; exact h.idle k (by rw [hp]; exact hk)
    · intro k hk; exact h.live k (by rw [hp]; exact hk)
    · intro k; have := h.flow k; rw [hp] at this; exact this
    · have := h.sema
      rw [hp] at this
      simp only [parentHolds] at this ⊢
      omega
    · intro k hk; cases hk
    · intro k hk
      simp only [Phase.make.injEq] at hk
      subst hk
      exact h.acq i hp
    · intro k hk; cases hk
    · rintro (hk | hk) <;> cases hk
    · intro k hk; cases hk
    · intro _ _; exact h.empty (by rw [hp]; simp) (by rw [hp]; simp)
    · intro hk; cases hk
  | start i hp rs hf =>
    have hold : w.child i = ⟨0, [], [], false⟩ := h.idle i (by rw [hp]; exact le_rfl)
    have hseen : startedUpTo n (if (i : ℕ) + 1 < n then Phase.acquire ((i : ℕ) + 1) else .join 0) = i + 1 := by
      have := i.isLt
      by_cases hc : (i : ℕ) + 1 < n
      · rw [if_pos hc]; rfl
      · rw [if_neg hc]; simp only [startedUpTo]; omega
    have hcase : ∀ p : Phase, (if (i : ℕ) + 1 < n then Phase.acquire ((i : ℕ) + 1) else .join 0) = p →
        ((i : ℕ) + 1 < n ∧ p = .acquire (i + 1)) ∨ p = .join 0 := by
      intro p hpp
      by_cases hc : (i : ℕ) + 1 < n
      · rw [if_pos hc] at hpp; exact Or.inl ⟨hc, hpp.symm⟩
      · rw [if_neg hc] at hpp; exact Or.inr hpp.symm
    have hgot : w.got = [] := h.empty (by rw [hp]; simp) (by rw [hp]; simp)
    refine ⟨?_, ?_, ?_, h.job, ?_, ?_, ?_, ?_, ?_, ?_, ?_, h.room, ?_⟩
    · intro k hk
      simp only [hseen] at hk
      have : k ≠ i := by rintro rfl; omega
      simp only [Function.update_of_ne this]
      exact h.idle k (by rw [hp]; simp only [startedUpTo]; omega)
    · intro k hk
      simp only [hseen] at hk
      by_cases e : k = i
      · subst e
        simp only [Function.update_self]
        refine ⟨by rw [hold], ⟨rs, hf⟩, Or.inr ⟨rs, rfl⟩, by simp⟩
      · simp only [Function.update_of_ne e]
        refine h.live k ?_
        rw [hp]
        simp only [startedUpTo]
        have : (k : ℕ) ≠ i := fun hh => e (Fin.ext hh)
        omega
    · intro k
      have hfl := h.flow k
      rw [hp] at hfl
      simp only [hseen]
      by_cases e : k = i
      · subst e
        simp only [Function.update_self]
        rw [hold] at hfl
        simp only [startedUpTo, lt_irrefl, if_false, putsOf, List.append_nil] at hfl
        rw [hfl, putsOf_script, if_pos (by omega), hf]
        rfl
      · simp only [Function.update_of_ne e]
        rw [hfl]
        have : (k : ℕ) ≠ i := fun hh => e (Fin.ext hh)
        by_cases hc : (k : ℕ) < i
        · rw [if_pos (show (k : ℕ) < startedUpTo n (.make i) from hc), if_pos (by omega)]
        · rw [if_neg (show ¬ (k : ℕ) < startedUpTo n (.make i) from hc), if_neg (by omega)]
    · have h1 := sum_update holds w.child i ⟨(w.child i).starts + 1, rs.map .put ++ [.release], [], false⟩
      have h2 := h.sema
      rw [hp] at h2
      have h3 : holds (w.child i) = 0 := by rw [hold]; rfl
      have h4 : holds ⟨(w.child i).starts + 1, rs.map .put ++ [.release], [], false⟩ = 1 := by
        unfold holds; simp
      have h5 : parentHolds (if (i : ℕ) + 1 < n then Phase.acquire ((i : ℕ) + 1) else .join 0) = 0 := by
        by_cases hc : (i : ℕ) + 1 < n
        · rw [if_pos hc]; rfl
        · rw [if_neg hc]; rfl
      simp only [parentHolds] at h2
      simp only [h5]
      omega
    · intro k hk
      rcases hcase _ hk with ⟨hc, hh⟩ | hh
      · simp only [Phase.acquire.injEq] at hh; omega
      · cases hh
    · intro k hk
      rcases hcase _ hk with ⟨hc, hh⟩ | hh <;> cases hh
    · intro k hk
      rcases hcase _ hk with ⟨hc, hh⟩ | hh
      · cases hh
      · simp only [Phase.join.injEq] at hh
        subst hh
        exact ⟨i.pos, by intro l hl; omega⟩
    · rintro (hk | hk) <;> rcases hcase _ hk with ⟨hc, hh⟩ | hh <;> cases hh
    · intro k hk
      rcases hcase _ hk with ⟨hc, hh⟩ | hh <;> cases hh
    · intro _ _; exact hgot
    · intro hk
      rcases hcase _ hk with ⟨hc, hh⟩ | hh <;> cases hh
  | raise i hp hf =>
    refine ⟨?_, ?_, ?_, h.job, ?_, ?_, ?_, ?_, ?_, ?_, ?_, h.room, ?_⟩
    · intro k hk; exact h.idle k (by rw [hp]; exact hk)
    · intro k hk; exact h.live k (by rw [hp]; exact hk)
    · intro k; have := h.flow k; rw [hp] at this; exact this
    · have := h.sema
      rw [hp] at this
      exact this
    · intro k hk; cases hk
    · intro k hk; cases hk
    · intro k hk; cases hk
    · rintro (hk | hk) <;> cases hk
    · intro k hk
      simp only [Phase.raised.injEq] at hk
      subst hk
      exact ⟨i.isLt, hf⟩
    · intro _ _; exact h.empty (by rw [hp]; simp) (by rw [hp]; simp)
    · intro hk; cases hk
  | put i r as ha =>
    have hi := live_of_acts h (i := i) (by rw [ha]; simp)
    obtain ⟨l1, l2, l3, l4⟩ := h.live i hi
    rw [ha] at l3
    obtain ⟨hsl, hne⟩ := scriptLeft_put l3
    obtain ⟨hx, hd1, hd2⟩ := not_drained h (i := i) (by rw [ha]; simp)
    refine inv_child h i { w.child i with acts := as, buf := (w.child i).buf ++ [r] } w.sema w.pipe hi
      l1 hsl ?_ (fun hh => hh) ?_ (fun _ _ => rfl)
      (fun r hr => h.job r (List.mem_append_right _ hr)) ?_ h.room h.fin
    · intro hh; simp only at hh; rw [hx] at hh; cases hh
    · simp only [ha, putsOf, List.append_assoc, List.cons_append, List.nil_append]
    · have h1 : holds { w.child i with acts := as, buf := (w.child i).buf ++ [r] } = 1 := by
        unfold holds
        cases as with
        | nil => exact absurd rfl hne
        | cons a as => rfl
      have h2 : holds (w.child i) = 1 := by unfold holds; rw [ha]; rfl
      omega
  | release i as ha =>
    have hi := live_of_acts h (i := i) (by rw [ha]; simp)
    obtain ⟨l1, l2, l3, l4⟩ := h.live i hi
    rw [ha] at l3
    have has := scriptLeft_release l3
    subst has
    obtain ⟨hx, hd1, hd2⟩ := not_drained h (i := i) (by rw [ha]; simp)
    refine inv_child h i { w.child i with acts := [] } (w.sema + 1) w.pipe hi
      l1 (Or.inl rfl) ?_ (fun hh => hh) ?_ (fun _ _ => rfl)
      (fun r hr => h.job r (List.mem_append_right _ hr)) ?_ h.room h.fin
    · intro hh; simp only at hh; rw [hx] at hh; cases hh
    · simp only [ha, putsOf]
    · have h1 : holds { w.child i with acts := [] } = 0 := rfl
      have h2 : holds (w.child i) = 1 := by unfold holds; rw [ha]; rfl
      omega
  | feed i r b hb hc =>
    have hi := live_of_buf h (i := i) (by rw [hb]; simp)
    obtain ⟨l1, ⟨rs, hrs⟩, l3, l4⟩ := h.live i hi
    obtain ⟨hx, hd1, hd2⟩ := not_drained h (i := i) (by rw [hb]; simp)
    have hr : r.job = i := by
      refine ht i rs hrs r ?_
      have := h.flow i
      rw [if_pos hi, hrs, hb] at this
      simp only [Option.getD_some] at this
      rw [← this]
      simp
    have hgot : w.got = [] := h.empty hd1 hd2
    refine inv_child h i { w.child i with buf := b } w.sema (w.pipe ++ [r]) hi
      l1 l3 ?_ (fun hh => hh) ?_ ?_ ?_ ?_ ?_ (fun hh => absurd hh hd2)
    · intro hh; simp only at hh; rw [hx] at hh; cases hh
    · simp only [hb, List.filter_append, List.filter_cons, List.filter_nil, hr, decide_true, if_true,
        List.append_assoc, List.cons_append, List.nil_append]
    · intro k hk
      have : ¬ r.job = k := by
        rw [hr]; intro hh; exact hk (Fin.ext hh.symm)
      simp [List.filter_append, List.filter_cons, this]
    · intro r' hr'
      rcases List.mem_append.1 hr' with hr' | hr'
      · exact h.job r' (List.mem_append_right _ hr')
      · obtain rfl := by simpa using hr'
        rw [hr]; exact i.isLt
    · have : holds { w.child i with buf := b } = holds (w.child i) := rfl
      omega
    · rw [hgot]; simp; omega
  | exit i hs ha hb he =>
    have hi : (i : ℕ) < startedUpTo n w.phase := by
      by_contra hc
      rw [h.idle i (by omega)] at hs
      simp at hs
    obtain ⟨l1, l2, l3, l4⟩ := h.live i hi
    refine inv_child h i { w.child i with exited := true } w.sema w.pipe hi
      l1 l3 (fun _ => ⟨ha, hb⟩) (fun _ => rfl) rfl (fun _ _ => rfl)
      (fun r hr => h.job r (List.mem_append_right _ hr)) rfl h.room h.fin
  | join i hp he =>
    have hseen : startedUpTo n (if (i : ℕ) + 1 < n then Phase.join ((i : ℕ) + 1) else .drain) =
        startedUpTo n w.phase := by
      rw [hp]
      by_cases hc : (i : ℕ) + 1 < n
      · rw [if_pos hc]; rfl
      · rw [if_neg hc]; rfl
    have hcase : ∀ p : Phase, (if (i : ℕ) + 1 < n then Phase.join ((i : ℕ) + 1) else .drain) = p →
        ((i : ℕ) + 1 < n ∧ p = .join (i + 1)) ∨ (¬ (i : ℕ) + 1 < n ∧ p = .drain) := by
      intro p hpp
      by_cases hc : (i : ℕ) + 1 < n
      · rw [if_pos hc] at hpp; exact Or.inl ⟨hc, hpp.symm⟩
      · rw [if_neg hc] at hpp; exact Or.inr ⟨hc, hpp.symm⟩
    have hall : ∀ l : Fin n, (l : ℕ) ≤ i → (w.child l).exited = true := by
      intro l hl
      by_cases e : l = i
      · rw [e]; exact he
      · exact (h.joi i hp).2 l (by
          have : (l : ℕ) ≠ i := fun hh => e (Fin.ext hh)
          omega)
    refine ⟨?_, ?_, ?_, h.job, ?_, ?_, ?_, ?_, ?_, ?_, ?_, h.room, ?_⟩
    · intro k hk; exact h.idle k (by simpa only [hseen] using hk)
    · intro k hk; exact h.live k (by simpa only [hseen] using hk)
    · intro k; simp only [hseen]; exact h.flow k
    · have h2 := h.sema
      have h5 : parentHolds (if (i : ℕ) + 1 < n then Phase.join ((i : ℕ) + 1) else .drain) = 0 := by
        by_cases hc : (i : ℕ) + 1 < n
        · rw [if_pos hc]; rfl
        · rw [if_neg hc]; rfl
      rw [hp] at h2
      simp only [parentHolds] at h2
      simp only [h5]
      exact h2
    · intro k hk
      rcases hcase _ hk with ⟨-, hh⟩ | ⟨-, hh⟩ <;> cases hh
    · intro k hk
      rcases hcase _ hk with ⟨-, hh⟩ | ⟨-, hh⟩ <;> cases hh
    · intro k hk
      rcases hcase _ hk with ⟨hc, hh⟩ | ⟨-, hh⟩
      · simp only [Phase.join.injEq] at hh
        subst hh
        exact ⟨hc, fun l hl => hall l (by omega)⟩
      · cases hh
    · intro _ l
      have := l.isLt
      by_cases hl : (l : ℕ) ≤ i
      · exact hall l hl
      · rename_i hk
        rcases hk with hk | hk
        · rcases hcase _ hk with ⟨-, hh⟩ | ⟨hc, -⟩
          · cases hh
          · omega
        · rcases hcase _ hk with ⟨-, hh⟩ | ⟨-, hh⟩ <;> cases hh
    · intro k hk
      rcases hcase _ hk with ⟨-, hh⟩ | ⟨-, hh⟩ <;> cases hh
    · intro _ _; exact h.empty (by rw [hp]; simp) (by rw [hp]; simp)
    · intro hk
      rcases hcase _ hk with ⟨-, hh⟩ | ⟨-, hh⟩ <;> cases hh
  | take r p hp hq =>
    have hl : w.got ++ [r] ++ p = w.got ++ w.pipe := by rw [hq]; simp
    refine ⟨h.idle, h.live, ?_, ?_, h.sema, h.acq, h.mak, h.joi, h.dra, h.rai, ?_, ?_, ?_⟩
    · intro k; simp only [hl]; exact h.flow k
    · simp only [hl]; exact h.job
    · intro hh; exact absurd hp hh
    · have := h.room
      rw [hq] at this
      simp only [List.length_append, List.length_cons, List.length_nil] at this ⊢
      omega
    · intro hh; simp only at hh; rw [hp] at hh; cases hh
  | finish hp hq =>
    have hseen : startedUpTo n w.phase = startedUpTo n .done := by rw [hp]; rfl
    refine ⟨?_, ?_, ?_, h.job, ?_, ?_, ?_, ?_, ?_, ?_, ?_, h.room, fun _ => hq⟩
    · intro k hk; exact h.idle k (by rw [hseen]; exact hk)
    · intro k hk; exact h.live k (by rw [hseen]; exact hk)
    · intro k; have := h.flow k; rw [hseen] at this; exact this
    · have h2 := h.sema
      rw [hp] at h2
      exact h2
    · intro k hk; cases hk
    · intro k hk; cases hk
    · intro k hk; cases hk
    · intro _; exact h.dra (Or.inl hp)
    · intro k hk; cases hk
    · intro _ hh; exact absurd rfl hh

lemma inv_steps {fate : Fin n → Option (List Report)} (ht : Tagged fate) {cap limit k : ℕ} {w v : World n}
    (h : WorldInv fate cap limit w) (hs : ProcSteps fate cap k w v) : WorldInv fate cap limit v := by
  induction hs with
  | refl => exact h
  | tail _ h' ih => exact inv_step ht (ih h) h'

/-- Specification: a state of a run with so many permits. -/
def Reached (fate : Fin n → Option (List Report)) (cap limit : ℕ) (w : World n) : Prop :=
  ∃ k, ProcSteps fate cap k (World.init n limit) w

lemma inv_reached {fate : Fin n → Option (List Report)} (ht : Tagged fate) {cap limit : ℕ} (hn : 0 < n)
    {w : World n} (h : Reached fate cap limit w) : WorldInv fate cap limit w := by
  obtain ⟨k, hk⟩ := h
  exact inv_steps ht (inv_init fate cap limit hn) hk

/-! ## Limit and number of runs -/

/-- C64: never more jobs than permitted run at once, and no job is started twice. -/
theorem C64_limit {fate : Fin n → Option (List Report)} (ht : Tagged fate) {cap limit : ℕ} (hn : 0 < n)
    {w : World n} (h : Reached fate cap limit w) :
    (runningJobs w).card ≤ limit ∧ ∀ i, (w.child i).starts ≤ 1 := by
  have I := inv_reached ht hn h
  constructor
  · rw [card_running]
    have := I.sema
    omega
  · intro i
    by_cases hi : (i : ℕ) < startedUpTo n w.phase
    · rw [(I.live i hi).1]
    · rw [I.idle i (by omega)]; simp

/-! ## Every run ends -/

/-- What a process can still do. -/
def childWeight (fate : Option (List Report)) (c : Child) : ℕ :=
  if c.starts = 0 then 3 * (fate.getD []).length + 3
  else 2 * c.acts.length + (putsOf c.acts).length + 2 * c.buf.length + (if c.exited then 0 else 1)

/-- What the parent can still do. -/
def phaseWeight (n : ℕ) : Phase → ℕ
  | .acquire i => 2 * (n - i) + n + 3
  | .make i => 2 * (n - i) + n + 2
  | .join i => n - i + 2
  | .drain => 1
  | .done => 0
  | .raised _ => 0

lemma sum_update_at (f : Fin n → Child → ℕ) (c : Fin n → Child) (i : Fin n) (x : Child) :
    ∑ k, f k (Function.update c i x k) + f i (c i) = ∑ k, f k (c k) + f i x := by
  have h1 : ∑ k, f k (Function.update c i x k) =
      f i x + ∑ k ∈ Finset.univ.erase i, f k (c k) := by
    rw [← Finset.add_sum_erase _ _ (Finset.mem_univ i), Function.update_self]
    congr 1
    refine Finset.sum_congr rfl ?_
    intro k hk
    rw [Function.update_of_ne (Finset.ne_of_mem_erase hk)]
  have h2 : ∑ k, f k (c k) = f i (c i) + ∑ k ∈ Finset.univ.erase i, f k (c k) :=
    (Finset.add_sum_erase _ _ (Finset.mem_univ i)).symm
  omega

/-- What can still happen. -/
def worldWeight (fate : Fin n → Option (List Report)) (w : World n) : ℕ :=
  phaseWeight n w.phase + ∑ i, childWeight (fate i) (w.child i) + w.pipe.length

lemma weight_step {fate : Fin n → Option (List Report)} {cap limit : ℕ} {w v : World n}
    (h : WorldInv fate cap limit w) (hs : ProcStep fate cap w v) : worldWeight fate v < worldWeight fate w := by
  unfold worldWeight
  cases hs with
  | acquire i hp hs =>
    have := h.acq i hp
    rw [hp]
    simp only [phaseWeight]
    omega
  | start i hp rs hf =>
    have hold : w.child i = ⟨0, [], [], false⟩ := h.idle i (by rw [hp]; exact le_rfl)
    have h1 := sum_update_at (fun k => childWeight (fate k)) w.child i
      ⟨(w.child i).starts + 1, rs.map .put ++ [.release], [], false⟩
    have h2 : childWeight (fate i) (w.child i) = 3 * rs.length + 3 := by
      rw [hold, hf]; rfl
    have h3 : childWeight (fate i) ⟨(w.child i).starts + 1, rs.map .put ++ [.release], [], false⟩ =
        3 * rs.length + 3 := by
      unfold childWeight
      simp [putsOf_script]
      omega
    have h4 : phaseWeight n (if (i : ℕ) + 1 < n then Phase.acquire ((i : ℕ) + 1) else .join 0) <
        phaseWeight n w.phase := by
      rw [hp]
      have := i.isLt
      by_cases hc : (i : ℕ) + 1 < n
      · rw [if_pos hc]; simp only [phaseWeight]; omega
      · rw [if_neg hc]; simp only [phaseWeight]; omega
    simp only at h1 ⊢
    omega
  | raise i hp hf =>
    rw [hp]
    simp only [phaseWeight]
    omega
  | put i r as ha =>
    have hi := live_of_acts h (i := i) (by rw [ha]; simp)
    have hst := (h.live i hi).1
    have h1 := sum_update_at (fun k => childWeight (fate k)) w.child i
      ⟨(w.child i).starts, as, (w.child i).buf ++ [r], (w.child i).exited⟩
    have h2 : childWeight (fate i) ⟨(w.child i).starts, as, (w.child i).buf ++ [r], (w.child i).exited⟩ <
        childWeight (fate i) (w.child i) := by
      unfold childWeight
      simp only [hst, ha, putsOf, List.length_cons, List.length_append, List.length_nil]
      split <;> omega
    simp only at h1 ⊢
    omega
  | release i as ha =>
    have hi := live_of_acts h (i := i) (by rw [ha]; simp)
    have hst := (h.live i hi).1
    have h1 := sum_update_at (fun k => childWeight (fate k)) w.child i ⟨(w.child i).starts, as, (w.child i).buf, (w.child i).exited⟩
    have h2 : childWeight (fate i) ⟨(w.child i).starts, as, (w.child i).buf, (w.child i).exited⟩ <
        childWeight (fate i) (w.child i) := by
      unfold childWeight
      simp only [hst, ha, putsOf, List.length_cons, List.length_append, List.length_nil]
      split <;> omega
    simp only at h1 ⊢
    omega
  | feed i r b hb hc =>
    have hi := live_of_buf h (i := i) (by rw [hb]; simp)
    have hst := (h.live i hi).1
    have h1 := sum_update_at (fun k => childWeight (fate k)) w.child i ⟨(w.child i).starts, (w.child i).acts, b, (w.child i).exited⟩
    have h2 : childWeight (fate i) ⟨(w.child i).starts, (w.child i).acts, b, (w.child i).exited⟩ + 2 =
        childWeight (fate i) (w.child i) := by
      unfold childWeight
      simp only [hst, hb, List.length_cons]
      split <;> omega
    simp only [List.length_append, List.length_cons, List.length_nil] at h1 ⊢
    omega
  | exit i hs ha hb he =>
    have h1 := sum_update_at (fun k => childWeight (fate k)) w.child i ⟨(w.child i).starts, (w.child i).acts, (w.child i).buf, true⟩
    have h2 : childWeight (fate i) ⟨(w.child i).starts, (w.child i).acts, (w.child i).buf, true⟩ < childWeight (fate i) (w.child i) := by
      unfold childWeight
      have hne : ¬ (w.child i).starts = 0 := by omega
      simp only [hne, if_false]
      simp only [he, if_true, Bool.false_eq_true, if_false]
      omega
    simp only at h1 ⊢
    omega
  | join i hp he =>
    have h4 : phaseWeight n (if (i : ℕ) + 1 < n then Phase.join ((i : ℕ) + 1) else .drain) <
        phaseWeight n w.phase := by
      rw [hp]
      have := i.isLt
      by_cases hc : (i : ℕ) + 1 < n
      · rw [if_pos hc]; simp only [phaseWeight]; omega
      · rw [if_neg hc]; simp only [phaseWeight]; omega
    simp only
    omega
  | take r p hp hq =>
    rw [hq]
    simp only [List.length_cons]
    omega
  | finish hp hq =>
    rw [hp]
    simp only [phaseWeight]
    omega

lemma weight_steps {fate : Fin n → Option (List Report)} (ht : Tagged fate) {cap limit k : ℕ} {w v : World n}
    (h : WorldInv fate cap limit w) (hs : ProcSteps fate cap k w v) :
    k + worldWeight fate v ≤ worldWeight fate w := by
  induction hs with
  | refl => omega
  | tail hs' h' ih =>
    have := weight_step (inv_steps ht h hs') h'
    have := ih h
    omega

/-- C64: every order of steps comes to an end, after a number of steps bounded by the number of jobs
and reports. -/
theorem C64_ends {fate : Fin n → Option (List Report)} (ht : Tagged fate) {cap limit k : ℕ} (hn : 0 < n)
    {w : World n} (h : ProcSteps fate cap k (World.init n limit) w) :
    k ≤ 6 * n + 3 + 3 * ∑ i, ((fate i).getD []).length := by
  have h1 := weight_steps ht (inv_init fate cap limit hn) h
  have h2 : worldWeight fate (World.init n limit) = 6 * n + 3 + 3 * ∑ i, ((fate i).getD []).length := by
    unfold worldWeight
    simp only [World.init, phaseWeight, childWeight, if_true, List.length_nil, Finset.sum_add_distrib,
      Finset.sum_const, Finset.card_univ, Fintype.card_fin, smul_eq_mul, ← Finset.mul_sum]
    omega
  omega

/-! ## Where it ends -/

/-- Specification: no process can do anything. -/
def Stuck (fate : Fin n → Option (List Report)) (cap : ℕ) (w : World n) : Prop :=
  ¬ ∃ v, ProcStep fate cap w v

/-- C64: every state can be continued to one where nothing more can be done. -/
theorem C64_continues {fate : Fin n → Option (List Report)} (ht : Tagged fate) {cap limit : ℕ} (hn : 0 < n) :
    ∀ {w : World n}, Reached fate cap limit w →
    ∃ k v, ProcSteps fate cap k w v ∧ Stuck fate cap v := by
  suffices H : ∀ (m : ℕ) (w : World n), worldWeight fate w ≤ m → WorldInv fate cap limit w →
      ∃ k v, ProcSteps fate cap k w v ∧ Stuck fate cap v by
    intro w h
    exact H _ w le_rfl (inv_reached ht hn h)
  have trans : ∀ {k} {w v : World n} {u : World n}, ProcStep fate cap w v → ProcSteps fate cap k v u →
      ProcSteps fate cap (k + 1) w u := by
    intro k w v u h1 h2
    induction h2 with
    | refl => exact .tail (.refl _) h1
    | tail _ h' ih => exact .tail (ih h1) h'
  intro m
  induction m with
  | zero =>
    intro w hw hI
    refine ⟨0, w, .refl w, ?_⟩
    rintro ⟨v, hv⟩
    have := weight_step hI hv
    omega
  | succ m ih =>
    intro w hw hI
    by_cases hs : Stuck fate cap w
    · exact ⟨0, w, .refl w, hs⟩
    · unfold Stuck at hs
      push Not at hs
      obtain ⟨v, hv⟩ := hs
      have := weight_step hI hv
      obtain ⟨k, u, h1, h2⟩ := ih v (by omega) (inv_step ht hI hv)
      exact ⟨k + 1, u, trans hv h1, h2⟩

lemma stuck_acts {fate : Fin n → Option (List Report)} {cap : ℕ} {w : World n} (hs : Stuck fate cap w)
    (i : Fin n) : (w.child i).acts = [] := by
  cases ha : (w.child i).acts with
  | nil => rfl
  | cons a as =>
    exfalso
    cases a with
    | put r => exact hs ⟨_, .put i r as ha⟩
    | release => exact hs ⟨_, .release i as ha⟩

lemma stuck_phase {fate : Fin n → Option (List Report)} {cap limit : ℕ} (hl : 0 < limit) {w : World n}
    (h : WorldInv fate cap limit w) (hs : Stuck fate cap w) :
    w.phase = .done ∨ (∃ i, w.phase = .raised i) ∨
      (∃ i, w.phase = .join i) ∧ cap ≤ w.pipe.length ∧ ∃ k, (w.child k).buf ≠ [] := by
  have hacts := stuck_acts hs
  have hz : ∑ i, holds (w.child i) = 0 := by
    refine Finset.sum_eq_zero ?_
    intro i _
    unfold holds
    rw [hacts i]
    rfl
  have hsema := h.sema
  cases hp : w.phase with
  | acquire i =>
    exfalso
    rw [hp, hz] at hsema
    simp only [parentHolds] at hsema
    exact hs ⟨_, .acquire i hp (by omega)⟩
  | make i =>
    exfalso
    have hi := h.mak i hp
    cases hf : fate ⟨i, hi⟩ with
    | none => exact hs ⟨_, .raise ⟨i, hi⟩ hp hf⟩
    | some rs => exact hs ⟨_, .start ⟨i, hi⟩ hp rs hf⟩
  | join i =>
    refine Or.inr (Or.inr ⟨⟨i, rfl⟩, ?_⟩)
    have hi := (h.joi i hp).1
    have hlive : ((⟨i, hi⟩ : Fin n) : ℕ) < startedUpTo n w.phase := by rw [hp]; exact hi
    have hbuf : (w.child ⟨i, hi⟩).buf ≠ [] := by
      intro hb
      cases he : (w.child ⟨i, hi⟩).exited with
      | true => exact hs ⟨_, .join ⟨i, hi⟩ hp he⟩
      | false =>
        exact hs ⟨_, .exit ⟨i, hi⟩ (by rw [(h.live _ hlive).1]; omega) (hacts _) hb he⟩
    refine ⟨?_, ⟨i, hi⟩, hbuf⟩
    by_contra hc
    obtain ⟨r, b, hb⟩ := List.exists_cons_of_ne_nil hbuf
    exact hs ⟨_, .feed ⟨i, hi⟩ r b hb (by omega)⟩
  | drain =>
    exfalso
    cases hq : w.pipe with
    | nil => exact hs ⟨_, .finish hp hq⟩
    | cons r p => exact hs ⟨_, .take r p hp hq⟩
  | done => exact Or.inl rfl
  | raised i => exact Or.inr (Or.inl ⟨i, rfl⟩)

/-- C64: if all jobs can be made, in the end every job was started exactly once, has done all it had
to do and released the semaphore; whichever fail, in whichever order, however small the pipe. -/
theorem C64_all_run {fate : Fin n → Option (List Report)} (ht : Tagged fate) {cap limit : ℕ} (hn : 0 < n)
    (hl : 0 < limit) (hf : ∀ i, fate i ≠ none) {w : World n} (h : Reached fate cap limit w)
    (hs : Stuck fate cap w) :
    (∀ i, (w.child i).starts = 1 ∧ (w.child i).acts = []) ∧ w.sema = limit := by
  have I := inv_reached ht hn h
  have hphase : startedUpTo n w.phase = n ∧ parentHolds w.phase = 0 := by
    rcases stuck_phase hl I hs with hp | ⟨i, hp⟩ | ⟨⟨i, hp⟩, -⟩
    · rw [hp]; exact ⟨rfl, rfl⟩
    · obtain ⟨hi, hf'⟩ := I.rai i hp
      exact absurd hf' (hf _)
    · rw [hp]; exact ⟨rfl, rfl⟩
  refine ⟨?_, ?_⟩
  · intro i
    exact ⟨(I.live i (by rw [hphase.1]; exact i.isLt)).1, stuck_acts hs i⟩
  · have h1 := I.sema
    have hz : ∑ i, holds (w.child i) = 0 := by
      refine Finset.sum_eq_zero ?_
      intro i _
      unfold holds
      rw [stuck_acts hs i]
      rfl
    rw [hz, hphase.2] at h1
    omega

/-- C64: if a job cannot be made, the jobs before it are run, the later ones are not started, and the
exception is raised. -/
theorem C64_raised {fate : Fin n → Option (List Report)} (ht : Tagged fate) {cap limit : ℕ} (hn : 0 < n)
    (hl : 0 < limit) {i : Fin n} (hi : fate i = none) (hf : ∀ k, k < i → fate k ≠ none) {w : World n}
    (h : Reached fate cap limit w) (hs : Stuck fate cap w) :
    w.phase = .raised i ∧ (∀ k, k < i → (w.child k).starts = 1 ∧ (w.child k).acts = []) ∧
      ∀ k, i ≤ k → (w.child k).starts = 0 := by
  have I := inv_reached ht hn h
  have hp : w.phase = .raised i := by
    have hnot : ¬ (i : ℕ) < startedUpTo n w.phase := by
      intro hlt
      obtain ⟨rs, hrs⟩ := (I.live i hlt).2.1
      rw [hi] at hrs; cases hrs
    rcases stuck_phase hl I hs with hp | ⟨k, hp⟩ | ⟨⟨k, hp⟩, -⟩
    · rw [hp] at hnot; exact absurd i.isLt hnot
    · obtain ⟨hk, hf'⟩ := I.rai k hp
      rw [hp] at hnot
      simp only [startedUpTo] at hnot
      rcases Nat.lt_or_ge k i with hlt | hge
      · exact absurd hf' (hf ⟨k, hk⟩ hlt)
      · rw [hp]; congr 1; omega
    · rw [hp] at hnot; exact absurd i.isLt hnot
  refine ⟨hp, ?_, ?_⟩
  · intro k hk
    exact ⟨(I.live k (by rw [hp]; exact hk)).1, stuck_acts hs k⟩
  · intro k hk
    rw [I.idle k (by rw [hp]; exact hk)]

/-! ## Reports -/

lemma sum_filter_jobs : ∀ {l : List Report}, (∀ r ∈ l, r.job < n) →
    ∑ i : Fin n, (l.filter (fun r => decide (r.job = (i : ℕ)))).length = l.length
  | [], _ => by simp
  | r :: l, h => by
    have ih := sum_filter_jobs (l := l) (fun r hr => h r (List.mem_cons_of_mem _ hr))
    have hr : r.job < n := h r List.mem_cons_self
    have h1 : ∀ i : Fin n, ((r :: l).filter (fun r => decide (r.job = (i : ℕ)))).length =
        (if i = ⟨r.job, hr⟩ then 1 else 0) + (l.filter (fun r => decide (r.job = (i : ℕ)))).length := by
      intro i
      rw [List.filter_cons]
      by_cases hi : r.job = (i : ℕ)
      · have : i = ⟨r.job, hr⟩ := Fin.ext hi.symm
        rw [if_pos this]
        simp only [hi, decide_true, if_true, List.length_cons]
        omega
      · have : ¬ i = ⟨r.job, hr⟩ := by rintro rfl; exact hi rfl
        rw [if_neg this]
        simp [hi]
    rw [Finset.sum_congr rfl (fun i _ => h1 i), Finset.sum_add_distrib, ih]
    simp
    omega

lemma flow_total {fate : Fin n → Option (List Report)} {cap limit : ℕ} {w : World n}
    (h : WorldInv fate cap limit w) (hp : startedUpTo n w.phase = n) :
    w.got.length + w.pipe.length + ∑ i, ((w.child i).buf.length + (putsOf (w.child i).acts).length) =
      ∑ i, ((fate i).getD []).length := by
  have h1 : ∀ i : Fin n, ((w.got ++ w.pipe).filter (fun r => decide (r.job = (i : ℕ)))).length +
      ((w.child i).buf.length + (putsOf (w.child i).acts).length) = ((fate i).getD []).length := by
    intro i
    have := h.flow i
    rw [if_pos (by rw [hp]; exact i.isLt)] at this
    rw [← this]
    simp only [List.length_append]
    omega
  have h2 := Finset.sum_congr (rfl : (Finset.univ : Finset (Fin n)) = Finset.univ) (fun i _ => h1 i)
  rw [← h2, Finset.sum_add_distrib (f := fun i : Fin n =>
    ((w.got ++ w.pipe).filter (fun r => decide (r.job = (i : ℕ)))).length), sum_filter_jobs h.job,
    List.length_append]

/-- C64: if all jobs can be made and the pipe holds all reports, every order of steps ends with
`run_jobs` returning, after it has read from each job exactly what it reported, in order. -/
theorem C64_reports_partial {fate : Fin n → Option (List Report)} (ht : Tagged fate) {cap limit : ℕ} (hn : 0 < n)
    (hl : 0 < limit) (hf : ∀ i, fate i ≠ none) (hcap : ∑ i, ((fate i).getD []).length ≤ cap) {w : World n}
    (h : Reached fate cap limit w) (hs : Stuck fate cap w) :
    w.phase = .done ∧ ∀ i, fate i = some (gotFrom w i) := by
  have I := inv_reached ht hn h
  have hdone : w.phase = .done := by
    rcases stuck_phase hl I hs with hp | ⟨i, hp⟩ | ⟨⟨i, hp⟩, hfull, k, hk⟩
    · exact hp
    · obtain ⟨hi, hf'⟩ := I.rai i hp
      exact absurd hf' (hf _)
    · exfalso
      have h1 := flow_total I (by rw [hp]; rfl)
      have h2 : 1 ≤ ∑ i, ((w.child i).buf.length + (putsOf (w.child i).acts).length) := by
        have hk' : 0 < (w.child k).buf.length := List.length_pos_iff.2 hk
        calc 1 ≤ (w.child k).buf.length + (putsOf (w.child k).acts).length := by omega
          _ ≤ _ := Finset.single_le_sum (f := fun i => (w.child i).buf.length +
              (putsOf (w.child i).acts).length) (fun i _ => Nat.zero_le _) (Finset.mem_univ k)
      omega
  refine ⟨hdone, ?_⟩
  intro i
  have hfl := I.flow i
  rw [if_pos (by rw [hdone]; exact i.isLt), I.fin hdone] at hfl
  obtain ⟨ha, hb⟩ := (I.live i (by rw [hdone]; exact i.isLt)).2.2.2 (I.dra (Or.inr hdone) i)
  rw [ha, hb] at hfl
  simp only [putsOf, List.append_nil] at hfl
  obtain ⟨rs, hrs⟩ := Option.ne_none_iff_exists'.1 (hf i)
  rw [hrs] at hfl ⊢
  simp only [Option.getD_some] at hfl
  unfold gotFrom
  rw [hfl]

/-- C64 is false if the pipe cannot hold all reports: no order of steps leads to `run_jobs` reading
the queue or returning. All jobs are run (`C64_all_run`), but then the parent waits for processes that
wait for room in the pipe. -/
theorem C64_deadlock {fate : Fin n → Option (List Report)} (ht : Tagged fate) {cap limit : ℕ} (hn : 0 < n)
    (hl : 0 < limit) (hf : ∀ i, fate i ≠ none) (hcap : cap < ∑ i, ((fate i).getD []).length) {w : World n}
    (h : Reached fate cap limit w) :
    w.phase ≠ .drain ∧ w.phase ≠ .done ∧
      (Stuck fate cap w → (∃ i, w.phase = .join i) ∧ w.got = []) := by
  have I := inv_reached ht hn h
  have key : ¬ (w.phase = .drain ∨ w.phase = .done) := by
    intro hp
    have hst : startedUpTo n w.phase = n := by rcases hp with hp | hp <;> rw [hp] <;> rfl
    have h1 := flow_total I hst
    have h2 : ∑ i, ((w.child i).buf.length + (putsOf (w.child i).acts).length) = 0 := by
      refine Finset.sum_eq_zero ?_
      intro i _
      obtain ⟨ha, hb⟩ := (I.live i (by rw [hst]; exact i.isLt)).2.2.2 (I.dra hp i)
      rw [ha, hb]
      rfl
    have := I.room
    omega
  push Not at key
  refine ⟨key.1, key.2, ?_⟩
  intro hs
  refine ⟨?_, I.empty key.1 key.2⟩
  rcases stuck_phase hl I hs with hp | ⟨i, hp⟩ | ⟨hp, -⟩
  · exact absurd hp key.2
  · obtain ⟨hi, hf'⟩ := I.rai i hp
    exact absurd hf' (hf _)
  · exact hp

end Verif.Props
