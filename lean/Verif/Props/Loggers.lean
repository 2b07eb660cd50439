import Verif.Model.Loggers

/-!
# C89: every message is written once, into the log of its model
-/

namespace Verif.Props

open Verif.Model

/-- The models made. -/
def madeLogs : List LogAct → List LogId
  | [] => []
  | .create m :: as => m :: madeLogs as
  | .tell _ _ :: as => madeLogs as

/-- The messages of the models with a log file. -/
def toldBy (f : LogId) : List LogAct → List String
  | [] => []
  | .create _ :: as => toldBy f as
  | .tell m text :: as => if m = f then text :: toldBy f as else toldBy f as

/-- A model speaks after it is made; `hs` are made before. -/
def SpeakAfter : List LogId → List LogAct → Prop
  | _, [] => True
  | hs, .create m :: as => SpeakAfter (m :: hs) as
  | hs, .tell m _ :: as => m ∈ hs ∧ SpeakAfter hs as

/-- Time stamps have 15 characters, as in `20261115-104501`. -/
def Stamped (m : LogId) : Prop := m.2.length = 15

/-- The folder is not named after the logger of `f`, with a dot. -/
def NotBelow (f m : LogId) : Prop := ¬ (f.1 ++ f.2 ++ ['.']) <+: m.1 ++ m.2

lemma loggerName_inj {m f : LogId} (hm : Stamped m) (hf : Stamped f) (h : loggerName m = loggerName f) : m = f := by
  unfold loggerName at h
  have := List.append_inj' h (by rw [hm, hf])
  exact Prod.ext this.1 this.2

lemma reaches_iff {m f : LogId} (hm : Stamped m) (hf : Stamped f) (hb : NotBelow f m) :
    reaches (loggerName m) (loggerName f) = true ↔ m = f := by
  unfold reaches
  rw [Bool.or_eq_true, beq_iff_eq, List.isPrefixOf_iff_prefix]
  constructor
  · rintro (h | h)
    · exact loggerName_inj hm hf h
    · exact absurd h hb
  · rintro rfl; exact Or.inl rfl

lemma log_once : ∀ {as : List LogAct} {hs : List LogId} {f : LogId}, SpeakAfter hs as → Stamped f →
    (∀ m ∈ hs ++ madeLogs as, Stamped m ∧ NotBelow f m) → (hs ++ madeLogs as).count f ≤ 1 →
    logLines hs as f = toldBy f as
  | [], hs, f, _, _, _, _ => rfl
  | .create m :: as, hs, f, h, hf, hst, hc => by
    have hp : (hs ++ madeLogs (.create m :: as)).Perm ((m :: hs) ++ madeLogs as) := by
      simp only [madeLogs, List.cons_append]
      exact List.perm_middle
    exact log_once (hs := m :: hs) h hf (fun x hx => hst x (hp.mem_iff.2 hx)) (by rw [← hp.count_eq]; exact hc)
  | .tell m text :: as, hs, f, h, hf, hst, hc => by
    have ih := log_once h.2 hf hst hc
    have hm := hst m (List.mem_append_left _ h.1)
    simp only [logLines, toldBy, ih]
    by_cases he : m = f
    · have hcount : hs.count f = 1 := by
        have h1 : 0 < hs.count f := List.count_pos_iff.2 (he ▸ h.1)
        have h2 : hs.count f ≤ (hs ++ madeLogs (.tell m text :: as)).count f := by
          rw [List.count_append]; exact Nat.le_add_right _ _
        omega
      rw [if_pos ((reaches_iff hm.1 hf hm.2).2 he), if_pos he, hcount]
      rfl
    · rw [if_neg (fun hr => he ((reaches_iff hm.1 hf hm.2).1 hr)), if_neg he]
      rfl

/-- C89: the log file of a model has exactly its messages, in their order, whatever other models of the process do.
Partial: C89 claims this for all models; here no other model is made in the same folder within the same second, and no
other folder has the name of this logger with a dot. See `C89_twice`. -/
theorem C89_once_partial {as : List LogAct} {f : LogId} (h : SpeakAfter [] as) (hst : ∀ m ∈ madeLogs as, Stamped m)
    (hf : f ∈ madeLogs as) (hc : (madeLogs as).count f = 1) (hb : ∀ m ∈ madeLogs as, NotBelow f m) :
    logLines [] as f = toldBy f as :=
  log_once h (hst f hf) (fun m hm => ⟨hst m hm, hb m hm⟩) hc.le

/-- C89: models in folders, none of which lies below a path ending like a time stamp with a dot, never write into each
other's logs. -/
theorem C89_others {as : List LogAct} {f : LogId} (h : SpeakAfter [] as) (hst : ∀ m ∈ madeLogs as, Stamped m)
    (hf : Stamped f) (hb : ∀ m ∈ madeLogs as, NotBelow f m) : ∀ t ∈ logLines [] as f, t ∈ toldBy f as := by
  have key : ∀ {as : List LogAct} {hs : List LogId}, SpeakAfter hs as →
      (∀ m ∈ hs ++ madeLogs as, Stamped m ∧ NotBelow f m) → ∀ t ∈ logLines hs as f, t ∈ toldBy f as := by
    intro as
    induction as with
    | nil => intro hs _ _ t ht; simp [logLines] at ht
    | cons a as ih =>
      intro hs h hst t ht
      cases a with
      | create m =>
        have hp : (hs ++ madeLogs (.create m :: as)).Perm ((m :: hs) ++ madeLogs as) := by
          simp only [madeLogs, List.cons_append]
          exact List.perm_middle
        exact ih (hs := m :: hs) h (fun x hx => hst x (hp.mem_iff.2 hx)) t ht
      | tell m text =>
        have hm := hst m (List.mem_append_left _ h.1)
        simp only [logLines, List.mem_append] at ht
        rcases ht with ht | ht
        · split_ifs at ht with hr
          · have he := (reaches_iff hm.1 hf hm.2).1 hr
            simp only [toldBy, if_pos he, List.mem_cons]
            exact Or.inl (List.eq_of_mem_replicate ht)
          · simp at ht
        · have := ih h.2 hst t ht
          simp only [toldBy]
          split_ifs
          · exact List.mem_cons_of_mem _ this
          · exact this
  exact key h (fun m hm => ⟨hst m hm, hb m hm⟩)

/-- C89 fails for two models made in one folder within one second: each message of both is in the file twice. -/
theorem C89_twice (f : LogId) (texts : List String) :
    logLines [] ([.create f, .create f] ++ texts.map (.tell f)) f = texts.flatMap fun t => [t, t] := by
  have key : ∀ texts : List String, logLines [f, f] (texts.map (.tell f)) f = texts.flatMap fun t => [t, t] := by
    intro texts
    induction texts with
    | nil => rfl
    | cons t texts ih =>
      simp only [List.map_cons, logLines, ih, List.flatMap_cons]
      simp [reaches, List.count_cons]
  exact key texts

/-- Two models in two folders within one second, talking in turn. -/
example : let a : LogId := ("/out/a".toList, "20261115-104501".toList)
    let b : LogId := ("/out/b".toList, "20261115-104501".toList)
    logLines [] [.create a, .tell a "one", .create b, .tell b "two", .tell a "three"] a = ["one", "three"] := by
  decide

end Verif.Props
