import Verif.Model.Log

/-!
# C66: verbosity
-/

namespace Verif.Props

open Verif.Model

/-- Specification: a request is heard in the log at a verbosity. -/
def Heard (v : ℤ) : LogReq → Prop
  | .info level _ => level ≤ v
  | .always _ => True
  | .modelTime _ => True

instance (v : ℤ) : (r : LogReq) → Decidable (Heard v r)
  | .info level _ => inferInstanceAs (Decidable (level ≤ v))
  | .always _ => inferInstanceAs (Decidable True)
  | .modelTime _ => inferInstanceAs (Decidable True)

/-- The text of a request. -/
def LogReq.text : LogReq → String
  | .info _ m => m
  | .always m => m
  | .modelTime m => m

/-- C66: the log has exactly the texts of the requests that are heard, in their order. -/
theorem C66_log (rs : List (ℤ × LogReq)) :
    (sayAll rs).log = (rs.filter (fun x => decide (Heard x.1 x.2))).map (fun x => LogReq.text x.2) := by
  induction rs with
  | nil => rfl
  | cons x rs ih =>
    obtain ⟨v, r⟩ := x
    rw [sayAll, List.filter_cons]
    cases r with
    | info l msg =>
      by_cases h : l ≤ v
      · have hd : decide (Heard v (.info l msg)) = true := decide_eq_true h
        rw [if_pos hd, List.map_cons, ← ih]
        simp [say, LogReq.text, h]
      · have hd : ¬ decide (Heard v (.info l msg)) = true := by
          rw [decide_eq_true_eq]; exact h
        rw [if_neg hd, ← ih]
        simp [say, h]
    | always msg =>
      have hd : decide (Heard v (.always msg)) = true := decide_eq_true trivial
      rw [if_pos hd, List.map_cons, ← ih]; rfl
    | modelTime msg =>
      have hd : decide (Heard v (.modelTime msg)) = true := decide_eq_true trivial
      rw [if_pos hd, List.map_cons, ← ih]; rfl

/-- C66: the standard output has exactly the times, if the verbosity is positive. -/
theorem C66_out (rs : List (ℤ × LogReq)) (m : String) :
    m ∈ (sayAll rs).out ↔ ∃ v > 0, (v, LogReq.modelTime m) ∈ rs := by
  induction rs with
  | nil => simp [sayAll]
  | cons x rs ih =>
    obtain ⟨v, r⟩ := x
    cases r with
    | info l msg => simp [sayAll, say, ih]
    | always msg => simp [sayAll, say, ih]
    | modelTime msg =>
      by_cases h : 0 < v
      · simp only [sayAll, say, gt_iff_lt, h, if_true, List.mem_append, ih, List.mem_cons,
          List.not_mem_nil, or_false, Prod.mk.injEq, LogReq.modelTime.injEq]
        constructor
        · rintro (rfl | ⟨w, hw, hm⟩)
          · exact ⟨v, h, Or.inl ⟨rfl, rfl⟩⟩
          · exact ⟨w, hw, Or.inr hm⟩
        · rintro ⟨w, hw, ⟨-, rfl⟩ | hm⟩
          · exact Or.inl rfl
          · exact Or.inr ⟨w, hw, hm⟩
      · simp only [sayAll, say, gt_iff_lt, h, if_false, List.nil_append, ih, List.mem_cons,
          Prod.mk.injEq, LogReq.modelTime.injEq]
        constructor
        · rintro ⟨w, hw, hm⟩; exact ⟨w, hw, Or.inr hm⟩
        · rintro ⟨w, hw, ⟨rfl, -⟩ | hm⟩
          · exact absurd hw h
          · exact ⟨w, hw, hm⟩

/-- Specification: the same requests in the same order, each at a verbosity at least as high. -/
inductive Louder : List (ℤ × LogReq) → List (ℤ × LogReq) → Prop
  | nil : Louder [] []
  | cons {v w : ℤ} {r : LogReq} {rs rs' : List (ℤ × LogReq)} (h : v ≤ w) (hs : Louder rs rs') :
      Louder ((v, r) :: rs) ((w, r) :: rs')

/-- C66: raising the verbosity never removes a message from the log or from the output, and keeps the
order. -/
theorem C66_monotone {rs rs' : List (ℤ × LogReq)} (h : Louder rs rs') :
    (sayAll rs).log.Sublist (sayAll rs').log ∧ (sayAll rs).out.Sublist (sayAll rs').out := by
  induction h with
  | nil => exact ⟨List.Sublist.refl _, List.Sublist.refl _⟩
  | @cons v w r rs rs' hvw _ ih =>
    refine ⟨List.Sublist.append ?_ ih.1, List.Sublist.append ?_ ih.2⟩
    · cases r with
      | info l msg =>
        by_cases h1 : v ≥ l
        · have h2 : w ≥ l := le_trans h1 hvw
          simp [say, h1, h2]
        · simp [say, h1]
      | always msg => exact List.Sublist.refl _
      | modelTime msg => exact List.Sublist.refl _
    · cases r with
      | info l msg => exact List.Sublist.refl _
      | always msg => exact List.Sublist.refl _
      | modelTime msg =>
        by_cases h1 : v > 0
        · have h2 : w > 0 := lt_of_lt_of_le h1 hvw
          simp [say, h1, h2]
        · simp [say, h1]

/-- C66: warnings, errors and the model time are in the log at any verbosity. -/
theorem C66_always {rs : List (ℤ × LogReq)} {v : ℤ} {m : String}
    (h : (v, LogReq.always m) ∈ rs ∨ (v, LogReq.modelTime m) ∈ rs) : m ∈ (sayAll rs).log := by
  rw [C66_log]
  rcases h with h | h
  · exact List.mem_map.2 ⟨_, List.mem_filter.2 ⟨h, decide_eq_true trivial⟩, rfl⟩
  · exact List.mem_map.2 ⟨_, List.mem_filter.2 ⟨h, decide_eq_true trivial⟩, rfl⟩

/-- C66, full statement: messages of level 0 are always logged. Proved for a verbosity that is not
negative. -/
theorem C66_level0_partial {rs : List (ℤ × LogReq)} {v : ℤ} {m : String} (hv : 0 ≤ v)
    (h : (v, LogReq.info 0 m) ∈ rs) : m ∈ (sayAll rs).log := by
  rw [C66_log]
  exact List.mem_map.2 ⟨_, List.mem_filter.2 ⟨h, decide_eq_true hv⟩, rfl⟩

/-- The limit of C66: `verbose` is any integer, and a negative one hides messages of level 0. -/
theorem C66_negative {v : ℤ} (hv : v < 0) (m : String) : (sayAll [(v, .info 0 m)]).log = [] := by
  have : ¬ v ≥ 0 := by omega
  simp [sayAll, say, this]

/-- Level 1 shows the second message but not the third. -/
example : sayAll [(1, .info 0 "Finalize the model run"), (1, .info 1 "Applying subsidence"),
    (1, .info 2 "Saving grids"), (1, .modelTime "Time: 0.0; timestep: 0")] =
    ⟨["Finalize the model run", "Applying subsidence", "Time: 0.0; timestep: 0"],
      ["Time: 0.0; timestep: 0"]⟩ := by decide +kernel

end Verif.Props
