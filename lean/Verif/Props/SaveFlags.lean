import Verif.Model.SaveFlags
import Verif.Props.Config

/-!
# C54: save flags and saved variables agree
-/

set_option linter.unusedSimpArgs false

namespace Verif.Props

open Verif.Model

/-- The value that a flag was last set to. -/
def lastSet {F : Type*} [DecidableEq F] (ops : List (F × Bool)) (f : F) : Option Bool :=
  ((ops.filter (fun p => p.1 = f)).getLast?).map (·.2)

lemma lastSet_snoc {F : Type*} [DecidableEq F] (ops : List (F × Bool)) (g : F) (b : Bool) (f : F) :
    lastSet (ops ++ [(g, b)]) f = if g = f then some b else lastSet ops f := by
  unfold lastSet
  rw [List.filter_append]
  by_cases h : g = f
  · simp [h]
  · simp [h]

/-- What the list says about an entry. -/
def Listed (l : Dict String) (e : String × String) (on : Prop) : Prop :=
  (on → dget l e.1 = some e.2) ∧ (¬ on → dget l e.1 = none)

lemma setVar_get (b : Bool) (l : Dict String) (e : String × String) (k : String) :
    dget (setVar b l e) k = if k = e.1 then
      (if b then some ((dget l k).getD e.2) else none) else dget l k := by
  unfold setVar
  cases b with
  | true =>
    by_cases h : e.1 ∈ dkeys l
    · simp only [h, not_true, and_false, if_false, Bool.true_eq_false, false_and, if_true]
      split_ifs with hk
      · subst hk
        obtain ⟨v, hv⟩ := mem_dkeys.1 h
        simp [hv]
      · rfl
    · simp only [h, not_false_iff, and_true, if_true, dget_dset]
      split_ifs with hk
      · subst hk
        simp [dget_none.2 h]
      · rfl
  | false =>
    by_cases h : e.1 ∈ dkeys l
    · simp [h, dget_ddel]
    · simp only [h, Bool.false_eq_true, false_and, if_false, and_false]
      split_ifs with hk
      · subst hk; exact dget_none.2 h
      · rfl

lemma grid_keys {f g : GridFlag} {e e' : String × String} (he : e ∈ f.entries) (he' : e' ∈ g.entries)
    (h : e.1 = e'.1) : f = g ∧ e = e' := by
  have key : ∀ f g : GridFlag, ∀ e ∈ f.entries, ∀ e' ∈ g.entries, e.1 = e'.1 → f = g ∧ e = e' := by
    intro f g
    cases f <;> cases g <;> decide
  exact key f g e he e' he' h

lemma grid_nodup (f : GridFlag) : (f.entries.map (·.1)).Nodup := by
  cases f <;> decide

lemma foldl_setVar_other {b : Bool} {es : List (String × String)} {k : String}
    (h : ∀ e ∈ es, k ≠ e.1) (l : Dict String) : dget (es.foldl (setVar b) l) k = dget l k := by
  induction es generalizing l with
  | nil => rfl
  | cons a es ih =>
    rw [List.foldl_cons, ih (fun e he => h e (List.mem_cons_of_mem _ he)), setVar_get,
      if_neg (h a List.mem_cons_self)]

lemma foldl_setVar_mem {b : Bool} {es : List (String × String)} {e : String × String} (he : e ∈ es)
    (hn : (es.map (·.1)).Nodup) (l : Dict String) :
    dget (es.foldl (setVar b) l) e.1 = if b then some ((dget l e.1).getD e.2) else none := by
  induction es generalizing l with
  | nil => simp at he
  | cons a es ih =>
    rw [List.map_cons, List.nodup_cons] at hn
    rw [List.foldl_cons]
    rcases List.mem_cons.1 he with rfl | h
    · rw [foldl_setVar_other, setVar_get, if_pos rfl]
      intro e' he' heq
      exact hn.1 (heq ▸ List.mem_map_of_mem he')
    · have hne : ¬ e.1 = a.1 := fun heq => hn.1 (heq ▸ List.mem_map_of_mem h)
      rw [ih h hn.2, setVar_get, if_neg hne]

/-- C54 for grids: after any assignments of flags, an entry of a flag is in the list, with its attribute,
exactly if the flag was last set to true. -/
theorem C54_grids (ops : List (GridFlag × Bool)) (f : GridFlag) (e : String × String)
    (he : e ∈ f.entries) : Listed (gridsAfter ops) e (lastSet ops f = some true) := by
  induction ops using List.reverseRecOn with
  | nil => exact ⟨by simp [lastSet], fun _ => rfl⟩
  | append_singleton ops op ih =>
    obtain ⟨g, b⟩ := op
    have hstep : gridsAfter (ops ++ [(g, b)]) = setGrid (gridsAfter ops) g b := by
      unfold gridsAfter; rw [List.foldl_append]; rfl
    unfold Listed at ih ⊢
    rw [hstep, lastSet_snoc]
    unfold setGrid
    by_cases hg : g = f
    · subst hg
      rw [foldl_setVar_mem he (grid_nodup g)]
      cases b with
      | false => simp
      | true =>
        simp only [if_true, not_true, false_imp_iff, and_true, true_imp_iff]
        by_cases hl : lastSet ops g = some true
        · rw [ih.1 hl]; rfl
        · rw [ih.2 hl]; rfl
    · rw [if_neg hg, foldl_setVar_other]
      · exact ih
      · intro e' he' heq
        exact hg (grid_keys he he' heq).1.symm

/-- Nothing else is in the list. -/
theorem C54_grids_only (ops : List (GridFlag × Bool)) (k : String) (hk : k ∈ dkeys (gridsAfter ops)) :
    ∃ f : GridFlag, ∃ e ∈ f.entries, e.1 = k := by
  induction ops using List.reverseRecOn with
  | nil => simp [gridsAfter, dkeys] at hk
  | append_singleton ops op ih =>
    obtain ⟨g, b⟩ := op
    by_contra hc
    push Not at hc
    have hstep : gridsAfter (ops ++ [(g, b)]) = setGrid (gridsAfter ops) g b := by
      unfold gridsAfter; rw [List.foldl_append]; rfl
    rw [hstep, mem_dkeys] at hk
    unfold setGrid at hk
    rw [foldl_setVar_other (fun e he h => hc g e he h.symm)] at hk
    obtain ⟨f, e, he, h⟩ := ih (mem_dkeys.2 hk)
    exact hc f e he h

/-! ## Figures -/

lemma fig_keys {f g : FigFlag} (h : f.entry.1 = g.entry.1) : f = g := by
  revert h; cases f <;> cases g <;> decide

/-- One assignment, seen at a key that is not the one deleted by mistake. -/
lemma setFig_get (l : Dict String) (f g : FigFlag) (b : Bool)
    (h : ¬ (f = .velocity ∧ b = false ∧ f.entry.1 ∈ dkeys l)) :
    dget (setFig l f b).1 g.entry.1 = if f = g then
      (if b then some ((dget l g.entry.1).getD g.entry.2) else none) else dget l g.entry.1 := by
  unfold setFig
  cases b with
  | true =>
    by_cases hm : f.entry.1 ∈ dkeys l
    · simp only [hm, not_true, and_false, if_false, Bool.true_eq_false, false_and, if_true]
      split_ifs with hk
      · subst hk
        obtain ⟨v, hv⟩ := mem_dkeys.1 hm
        simp [hv]
      · rfl
    · simp only [hm, not_false_iff, and_true, if_true, dget_dset]
      by_cases hk : f = g
      · subst hk
        simp [dget_none.2 hm]
      · rw [if_neg (fun h => hk (fig_keys h).symm), if_neg hk]
  | false =>
    by_cases hm : f.entry.1 ∈ dkeys l
    · have hv : f ≠ .velocity := fun hv => h ⟨hv, rfl, hm⟩
      have hd : f.deleted = f.entry.1 := by revert hv; cases f <;> decide
      simp only [Bool.false_eq_true, false_and, if_false, hm, and_self, if_true, hd, dget_ddel]
      by_cases hk : f = g
      · subst hk; simp
      · rw [if_neg (fun h => hk (fig_keys h).symm), if_neg hk]
    · simp only [hm, Bool.false_eq_true, false_and, if_false, and_false]
      split_ifs with hk
      · subst hk; exact dget_none.2 hm
      · rfl

/-- Velocity figures are not switched off after they were switched on. -/
def VelocityStays (ops : List (FigFlag × Bool)) : Prop :=
  ops.Pairwise (fun a b => ¬ (a = (.velocity, true) ∧ b = (.velocity, false)))

lemma lastSet_mem {F : Type*} [DecidableEq F] {ops : List (F × Bool)} {f : F} {b : Bool}
    (h : lastSet ops f = some b) : (f, b) ∈ ops := by
  unfold lastSet at h
  rw [Option.map_eq_some_iff] at h
  obtain ⟨⟨g, c⟩, hl, rfl⟩ := h
  have := List.mem_of_getLast? hl
  rw [List.mem_filter] at this
  obtain ⟨h1, h2⟩ := this
  simp only [decide_eq_true_eq] at h2
  subst h2
  exact h1

/-- C54 for figures: an entry is in the list, with its attribute, exactly if its flag was last set to
true, and no assignment fails, as long as velocity figures are not switched off after they were
switched on.
Partial: C54 claims this for all assignments, see `C54_velocity_figs`, `C54_velocity_error`. -/
theorem C54_figs_partial (ops : List (FigFlag × Bool)) (hops : VelocityStays ops) (f : FigFlag) :
    Listed (figsAfter ops) f.entry (lastSet ops f = some true) := by
  induction ops using List.reverseRecOn generalizing f with
  | nil => exact ⟨by simp [lastSet], fun _ => rfl⟩
  | append_singleton ops op ih =>
    obtain ⟨g, b⟩ := op
    have hp : VelocityStays ops := (List.pairwise_append.1 hops).1
    have hstep : figsAfter (ops ++ [(g, b)]) = (setFig (figsAfter ops) g b).1 := by
      unfold figsAfter; rw [List.foldl_append]; rfl
    have hno : ¬ (g = .velocity ∧ b = false ∧ g.entry.1 ∈ dkeys (figsAfter ops)) := by
      rintro ⟨rfl, rfl, hm⟩
      have hv := ih hp .velocity
      by_cases hl : lastSet ops FigFlag.velocity = some true
      · exact (List.pairwise_append.1 hops).2.2 _ (lastSet_mem hl) _ (List.mem_singleton.2 rfl)
          ⟨rfl, rfl⟩
      · exact dget_none.1 (hv.2 hl) hm
    have ihf := ih hp f
    unfold Listed at ihf ⊢
    rw [hstep, lastSet_snoc, setFig_get _ _ _ _ hno]
    by_cases hg : g = f
    · subst hg
      cases b with
      | false => simp
      | true =>
        simp only [if_true, not_true, false_imp_iff, and_true, true_imp_iff]
        by_cases hl : lastSet ops g = some true
        · rw [ihf.1 hl]; rfl
        · rw [ihf.2 hl]; rfl
    · rw [if_neg hg, if_neg hg]
      exact ihf

/-- C54 for the other figures, whatever is done with the velocity flag. -/
theorem C54_figs_other_partial (ops : List (FigFlag × Bool)) (f : FigFlag) (h1 : f ≠ .velocity)
    (h2 : f ≠ .sedflux) : Listed (figsAfter ops) f.entry (lastSet ops f = some true) := by
  induction ops using List.reverseRecOn with
  | nil => exact ⟨by simp [lastSet], fun _ => rfl⟩
  | append_singleton ops op ih =>
    obtain ⟨g, b⟩ := op
    have hstep : figsAfter (ops ++ [(g, b)]) = (setFig (figsAfter ops) g b).1 := by
      unfold figsAfter; rw [List.foldl_append]; rfl
    unfold Listed at ih ⊢
    rw [hstep, lastSet_snoc]
    by_cases hno : g = .velocity ∧ b = false ∧ g.entry.1 ∈ dkeys (figsAfter ops)
    · obtain ⟨rfl, rfl, hm⟩ := hno
      rw [if_neg (Ne.symm h1)]
      have hd : f.entry.1 ≠ FigFlag.velocity.deleted := by
        revert h1 h2; cases f <;> decide
      have : dget (setFig (figsAfter ops) .velocity false).1 f.entry.1 =
          dget (figsAfter ops) f.entry.1 := by
        unfold setFig
        simp only [Bool.false_eq_true, false_and, if_false, hm, and_self, if_true]
        split_ifs
        · rw [dget_ddel, if_neg hd]
        · rfl
      rw [this]
      exact ih
    · rw [setFig_get _ _ _ _ hno]
      by_cases hg : g = f
      · subst hg
        cases b with
        | false => simp
        | true =>
          simp only [if_true, not_true, false_imp_iff, and_true, true_imp_iff]
          by_cases hl : lastSet ops g = some true
          · rw [ih.1 hl]; rfl
          · rw [ih.2 hl]; rfl
      · rw [if_neg hg, if_neg hg]
        exact ih

/-- C54 fails: switching velocity figures off removes the figures of sediment flux and keeps those of
velocity. -/
theorem C54_velocity_figs :
    dkeys (figsAfter [(.velocity, true), (.sedflux, true), (.velocity, false)]) = ["velocity"] := by
  decide

/-- C54 fails: switching velocity figures on and off raises an error and leaves them on. -/
theorem C54_velocity_error :
    (setFig (figsAfter [(.velocity, true)]) .velocity false).2 = some (.key "sedflux") ∧
    dkeys (figsAfter [(.velocity, true), (.velocity, false)]) = ["velocity"] := by
  decide

/-! ## Non-trivial cases -/

example : VelocityStays [(.eta, true), (.velocity, false), (.velocity, true), (.eta, false)] := by
  unfold VelocityStays; decide

example : dkeys (figsAfter [(.eta, true), (.velocity, false), (.velocity, true), (.eta, false)]) =
    ["velocity"] := by decide

example : dkeys (gridsAfter [(.velocityComp, true), (.eta, true), (.velocity, true),
    (.velocity, false)]) = ["velocity_x", "velocity_y", "eta"] := by decide

end Verif.Props
