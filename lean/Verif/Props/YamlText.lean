import Verif.Model.YamlText
import Verif.Spec.YamlText
import Verif.Lemmas.YamlRules
import Verif.Props.FigName

/-!
# C81: the configuration file of a job
-/

set_option linter.unusedSectionVars false
set_option linter.unusedSimpArgs false

namespace Verif.Props

open Verif.Model Verif.Spec Verif.Lemmas

/-! ### Characters -/

lemma isDigit_iff (c : Char) : c.isDigit = true ↔ 48 ≤ c.toNat ∧ c.toNat ≤ 57 := by
  simp only [Char.isDigit, Bool.and_eq_true, decide_eq_true_eq, Char.toNat, UInt32.le_iff_toNat_le, ge_iff_le]
  rfl

lemma isAlpha_iff (c : Char) : c.isAlpha = true ↔
    (65 ≤ c.toNat ∧ c.toNat ≤ 90) ∨ (97 ≤ c.toNat ∧ c.toNat ≤ 122) := by
  simp only [Char.isAlpha, Char.isUpper, Char.isLower, Bool.or_eq_true, Bool.and_eq_true, decide_eq_true_eq,
    Char.toNat, UInt32.le_iff_toNat_le, ge_iff_le]
  rfl

lemma digit_ne {c d : Char} (h : c.isDigit = true) (hd : d.isDigit = false) : c ≠ d := by
  rintro rfl
  simp [h] at hd

lemma digU_of_digit {c : Char} (h : c.isDigit = true) : digU c = true := by simp [digU, h]

/-! ### Numbers -/

lemma natOf_digits {t : List Char} (h : ∀ c ∈ t, c.isDigit = true) : natOf 10 t = decimal t := by
  have key : ∀ (t : List Char) (a : ℕ), (∀ c ∈ t, c.isDigit = true) →
      t.foldl (fun n c => n * 10 + charVal c) a = a * 10 ^ t.length + decimal t := by
    intro t
    induction t with
    | nil => intro a _; simp [decimal]
    | cons c t ih =>
      intro a h
      rw [List.foldl_cons, ih _ (fun x hx => h x (by simp [hx]))]
      have : charVal c = c.toNat - 48 := by
        unfold charVal
        rw [if_pos (h c (by simp))]
        rfl
      rw [this]
      simp only [List.length_cons, decimal, pow_succ]
      ring
  have := key t 0 h
  simpa [natOf] using this

lemma dropWhile_stop {p : Char → Bool} {d : List Char} {c : Char} {r : List Char} (hd : ∀ x ∈ d, p x = true)
    (hc : p c = false) : (d ++ c :: r).dropWhile p = c :: r := by
  induction d with
  | nil => simp [List.dropWhile_cons, hc]
  | cons a d ih =>
    rw [List.cons_append, List.dropWhile_cons, if_pos (hd a (by simp))]
    exact ih fun x hx => hd x (by simp [hx])

lemma takeWhile_stop {p : Char → Bool} {d : List Char} {c : Char} {r : List Char} (hd : ∀ x ∈ d, p x = true)
    (hc : p c = false) : (d ++ c :: r).takeWhile p = d := by
  induction d with
  | nil => simp [List.takeWhile_cons, hc]
  | cons a d ih =>
    rw [List.cons_append, List.takeWhile_cons, if_pos (hd a (by simp))]
    rw [ih fun x hx => hd x (by simp [hx])]

lemma dropWhile_all {p : Char → Bool} {d : List Char} (hd : ∀ x ∈ d, p x = true) : d.dropWhile p = [] := by
  induction d with
  | nil => rfl
  | cons a d ih =>
    rw [List.dropWhile_cons, if_pos (hd a (by simp))]
    exact ih fun x hx => hd x (by simp [hx])

lemma takeWhile_all {p : Char → Bool} {d : List Char} (hd : ∀ x ∈ d, p x = true) : d.takeWhile p = d := by
  induction d with
  | nil => rfl
  | cons a d ih =>
    rw [List.takeWhile_cons, if_pos (hd a (by simp)), ih fun x hx => hd x (by simp [hx])]

lemma dropSign_sign {s : List Char} {z : ℤ} (hs : SignText s z) {c : Char} (hc : c.isDigit = true)
    (t : List Char) : dropSign (s ++ c :: t) = c :: t ∧
      ((if hasMinus (s ++ c :: t) = true then (-1 : ℤ) else 1) = z) := by
  have h1 : c ≠ '-' := digit_ne hc (by decide)
  have h2 : c ≠ '+' := digit_ne hc (by decide)
  cases hs <;> simp [dropSign, hasMinus, h1, h2]

lemma signed (m : Bool) (q : ℚ) (z : ℤ) (h : (if m = true then (-1 : ℤ) else 1) = z) :
    (if m = true then -q else q) = z * q := by
  subst h
  cases m <;> simp

lemma sign_no_underscore {s : List Char} {z : ℤ} (hs : SignText s z) : '_' ∉ s := by
  cases hs <;> decide

lemma digits_no_underscore {d : List Char} (hd : ∀ c ∈ d, c.isDigit = true) : '_' ∉ d := fun h =>
  absurd (hd _ h) (by decide)

lemma filter_underscore {t : List Char} (h : '_' ∉ t) : t.filter (· ≠ '_') = t := by
  rw [List.filter_eq_self]
  intro c hc
  simp only [ne_eq, decide_eq_true_eq]
  rintro rfl
  exact h hc

lemma exp_no_underscore {x : List Char} {e : ℤ} (hx : ExpText x e) : '_' ∉ x := by
  cases hx with
  | mk hx hs hd =>
    simp only [List.mem_cons, List.mem_append, not_or]
    refine ⟨?_, sign_no_underscore hs, digits_no_underscore hd.2⟩
    rcases hx with rfl | rfl <;> decide

lemma exp_head {x : List Char} {e : ℤ} (hx : ExpText x e) : ∃ c t, x = c :: t ∧ (c = 'e' ∨ c = 'E') := by
  cases hx with
  | mk hx hs hd => exact ⟨_, _, rfl, hx⟩

lemma exp_expo {x : List Char} {e : ℤ} (hx : ExpText x e) : expo true x = true := by
  cases hx with
  | @mk y s d z hx hs hd =>
    obtain ⟨h1, h2⟩ := hd
    cases d with
    | nil => exact absurd rfl h1
    | cons c t =>
      have := (dropSign_sign hs (h2 c (by simp)) t).1
      unfold expo
      simp only
      rw [this]
      have : (c :: t).all Char.isDigit = true := by rw [List.all_eq_true]; exact h2
      simp only [digits1, this]
      rcases hx with rfl | rfl <;> rfl

lemma exp_value {x : List Char} {e : ℤ} (hx : ExpText x e) : expOf x = some e := by
  cases hx with
  | @mk y s d z hx hs hd =>
    obtain ⟨h1, h2⟩ := hd
    cases d with
    | nil => exact absurd rfl h1
    | cons c t =>
      obtain ⟨e1, e2⟩ := dropSign_sign hs (h2 c (by simp)) t
      unfold expOf
      simp only
      rw [if_pos hx, e1, e2, natOf_digits h2]

/-- What follows the first digits of a real number. -/
lemma real_shape {t : List Char} {q : ℚ} (h : RealText t q) :
    ∃ (s d : List Char) (z : ℤ) (y : Char) (r : List Char), SignText s z ∧ Digits d ∧ t = s ++ (d ++ y :: r) ∧
      (y = '.' ∨ y = 'e' ∨ y = 'E') ∧ '_' ∉ t ∧
      ((y = '.' ∧ ((r.dropWhile digU).isEmpty || expo true (r.dropWhile digU)) = true) ∨
        expo true (y :: r) = true) ∧
      ∃ v : ℚ, decOf (d ++ y :: r) = some v ∧ q = z * v := by
  cases h with
  | @point s d f z hs hd hf =>
    refine ⟨s, d, z, '.', f, hs, hd, rfl, .inl rfl, ?_, .inl ⟨rfl, ?_⟩, _, ?_, rfl⟩
    · simp [sign_no_underscore hs, digits_no_underscore hd.2, digits_no_underscore hf]
    · rw [dropWhile_all fun x hx => digU_of_digit (hf x hx)]; rfl
    · unfold decOf
      rw [takeWhile_stop hd.2 (by decide), dropWhile_stop hd.2 (by decide)]
      simp only [takeWhile_all hf, dropWhile_all hf, hd.1, false_and, if_false, expOf]
      rw [natOf_digits (by intro c hc; rcases List.mem_append.1 hc with h | h; exacts [hd.2 c h, hf c h])]
      congr 1
      rw [zero_sub, zpow_neg, zpow_natCast, div_eq_mul_inv]
  | @exp s d x z e hs hd hx =>
    obtain ⟨c, r, rfl, hc⟩ := exp_head hx
    have hcd : c.isDigit = false := by rcases hc with rfl | rfl <;> decide
    refine ⟨s, d, z, c, r, hs, hd, rfl, .inr hc, ?_, .inr (exp_expo hx), _, ?_, rfl⟩
    · have := exp_no_underscore hx
      simp [sign_no_underscore hs, digits_no_underscore hd.2] at this ⊢
      exact this
    · unfold decOf
      rw [takeWhile_stop hd.2 hcd, dropWhile_stop hd.2 hcd]
      have hne : c ≠ '.' := by rcases hc with rfl | rfl <;> decide
      split
      · rename_i heq
        simp only [List.cons.injEq] at heq
        exact absurd heq.1 hne
      · simp only [hd.1, if_false, exp_value hx, natOf_digits hd.2]
  | @both s d f x z e hs hd hf hx =>
    obtain ⟨c, r, rfl, hc⟩ := exp_head hx
    have hcd : c.isDigit = false := by rcases hc with rfl | rfl <;> decide
    have hcu : digU c = false := by rcases hc with rfl | rfl <;> decide
    refine ⟨s, d, z, '.', f ++ c :: r, hs, hd, rfl, .inl rfl, ?_, .inl ⟨rfl, ?_⟩, _, ?_, rfl⟩
    · have := exp_no_underscore hx
      simp [sign_no_underscore hs, digits_no_underscore hd.2, digits_no_underscore hf] at this ⊢
      exact this
    · rw [dropWhile_stop (fun x hx => digU_of_digit (hf x hx)) hcu, exp_expo hx, Bool.or_true]
    · unfold decOf
      rw [takeWhile_stop hd.2 (by decide), dropWhile_stop hd.2 (by decide)]
      simp only [takeWhile_stop hf hcd, dropWhile_stop hf hcd, hd.1, false_and, if_false, exp_value hx]
      rw [natOf_digits (by intro c hc; rcases List.mem_append.1 hc with h | h; exacts [hd.2 c h, hf c h])]
      congr 1
      rw [zpow_sub₀ (by norm_num), zpow_natCast]
      ring

/-- Texts that begin like a number are no words. -/
lemma number_no_word {t : List Char} {c : Char} {r : List Char} (ht : t = c :: r)
    (hc : c.isDigit = true ∨ c = '-' ∨ c = '+') :
    t ∉ trueWords ∧ t ∉ falseWords ∧ t ∉ nullWords ∧ t ≠ ['<', '<'] ∧ t ≠ ['='] := by
  subst ht
  have key : ∀ l : List (List Char), (∀ w ∈ l, ∀ a ∈ w.head?, ¬ (a.isDigit = true ∨ a = '-' ∨ a = '+')) →
      c :: r ∉ l := by
    intro l h hm
    exact h _ hm c rfl hc
  refine ⟨key _ (by decide), key _ (by decide), key _ (by decide), ?_, ?_⟩
  · have := key [['<', '<']] (by decide)
    simpa using this
  · have := key [['=']] (by decide)
    simpa using this

lemma sign_head {s : List Char} {z : ℤ} (hs : SignText s z) {c : Char} (hc : c.isDigit = true) (t : List Char) :
    ∃ a r, s ++ c :: t = a :: r ∧ (a.isDigit = true ∨ a = '-' ∨ a = '+') := by
  cases hs
  · exact ⟨c, t, rfl, .inl hc⟩
  · exact ⟨'+', c :: t, rfl, .inr (.inr rfl)⟩
  · exact ⟨'-', c :: t, rfl, .inr (.inl rfl)⟩

lemma mDate_head {a : Char} {t : List Char} (h : a.isDigit = false) : mDate (a :: t) = false := by
  apply mDate_false
  rcases t with _ | ⟨_, _ | ⟨_, _ | ⟨_, _ | ⟨_, _⟩⟩⟩⟩ <;> simp [datePrefix, h]

/-- C81: numbers with a point, an exponent in scientific notation (with or without its sign), or both are
read as the number they denote. -/
theorem C81_real {t : List Char} {q : ℚ} (h : RealText t q) : resolveText t = some (.float q) := by
  obtain ⟨s, d, z, y, r, hs, hd, rfl, hy, hu, hm, v, hv, rfl⟩ := real_shape h
  obtain ⟨hd0, hd⟩ := hd
  cases d with
  | nil => exact absurd rfl hd0
  | cons c d =>
    have hc := hd c (by simp)
    have hd' : ∀ x ∈ d, x.isDigit = true := fun x hx => hd x (by simp [hx])
    have hyd : y.isDigit = false := by rcases hy with rfl | rfl | rfl <;> decide
    have hyu : digU y = false := by rcases hy with rfl | rfl | rfl <;> decide
    rw [List.cons_append] at hv hu ⊢
    obtain ⟨e1, e2⟩ := dropSign_sign hs hc (d ++ y :: r)
    obtain ⟨a, w, hw, ha⟩ := sign_head hs hc (d ++ y :: r)
    obtain ⟨n1, n2, n3, n4, n5⟩ := number_no_word hw ha
    have hfv : floatVal (s ++ c :: (d ++ y :: r)) = some (.float (z * v)) := by
      unfold floatVal
      simp only [filter_underscore hu, e1, hv]
      rw [signed _ _ _ e2]
    have hfloat : mFloat true (s ++ c :: (d ++ y :: r)) = true := by
      unfold mFloat
      simp only [e1, hc, dropWhile_stop (fun x hx => digU_of_digit (hd' x hx)) hyu, Bool.true_and]
      rcases hm with ⟨rfl, hm⟩ | hm
      · simp only [hm, Bool.true_or]
      · simp only [hm, Bool.true_or, Bool.or_true]
    have hint : mInt (s ++ c :: (d ++ y :: r)) = false := by
      have hall : ∀ p : Char → Bool, p y = false → (d ++ y :: r).all p = false := by
        intro p hp
        rw [List.all_eq_false]
        exact ⟨y, by simp, by simp [hp]⟩
      have hb : ∀ u, d ++ y :: r ≠ 'b' :: u := by
        intro u hu
        cases d with
        | nil => simp at hu; rcases hy with h | h | h <;> (rw [h] at hu; exact absurd hu.1 (by decide))
        | cons a d => simp at hu; exact digit_ne (hd' a (by simp)) (by decide) hu.1
      have hx : ∀ u, d ++ y :: r ≠ 'x' :: u := by
        intro u hu
        cases d with
        | nil => simp at hu; rcases hy with h | h | h <;> (rw [h] at hu; exact absurd hu.1 (by decide))
        | cons a d => simp at hu; exact digit_ne (hd' a (by simp)) (by decide) hu.1
      unfold mInt
      rw [e1]
      split
      · rename_i h; cases h
      · rename_i u h; simp only [List.cons.injEq] at h; exact absurd h.2 (hb u)
      · rename_i u h; simp only [List.cons.injEq] at h; exact absurd h.2 (hx u)
      · rename_i u _ _ h
        simp only [List.cons.injEq] at h
        rw [← h.2]
        apply hall
        rcases hy with rfl | rfl | rfl <;> decide
      · rename_i c' u _ _ _ h
        simp only [List.cons.injEq] at h
        rw [← h.2, hall _ hyu, dropWhile_stop (fun x hx => digU_of_digit (hd' x hx)) hyu]
        have : sexTail (y :: r) = none := by
          rcases hy with rfl | rfl | rfl <;> (unfold sexTail; split <;> simp_all)
        rw [this]
        simp
    have hdate : mDate (s ++ c :: (d ++ y :: r)) = false := by
      have hne : (y == '-') = false := by rcases hy with rfl | rfl | rfl <;> decide
      cases hs
      · rw [List.nil_append]
        apply mDate_false
        rcases d with _ | ⟨d1, _ | ⟨d2, _ | ⟨d3, _ | ⟨d4, d5⟩⟩⟩⟩ <;>
          simp only [List.cons_append, List.nil_append]
        · rcases r with _ | ⟨_, _ | ⟨_, _ | ⟨_, _⟩⟩⟩ <;> simp [datePrefix, hyd]
        · rcases r with _ | ⟨_, _ | ⟨_, _⟩⟩ <;> simp [datePrefix, hyd]
        · rcases r with _ | ⟨_, _⟩ <;> simp [datePrefix, hyd]
        · simp [datePrefix, hne]
        · have : (d4 == '-') = false := by
            simpa using digit_ne (hd' d4 (by simp)) (by decide : ('-').isDigit = false)
          simp [datePrefix, this]
      · exact mDate_head (by decide)
      · exact mDate_head (by decide)
    unfold resolveText
    rw [if_neg n1, if_neg n2]
    split_ifs <;> first | exact hfv | simp_all

lemma splitColon_none {t : List Char} (h : ':' ∉ t) : splitColon t = [t] := by
  induction t with
  | nil => rfl
  | cons c t ih =>
    simp only [List.mem_cons, not_or] at h
    unfold splitColon
    rw [if_neg (fun e => h.1 e.symm), ih h.2]

/-- A text that begins with a digit has no form of a float that begins with a dot. -/
lemma not_dot {a : Char} (ha : a.isDigit = true ∨ a = '-' ∨ a = '+') : a ≠ '.' := by
  rintro rfl
  revert ha
  decide

/-- Digits with or without a sign have no form of a float. -/
lemma digits_no_float {s : List Char} {z : ℤ} (hs : SignText s z) {c : Char} {d : List Char}
    (hd : ∀ x ∈ c :: d, x.isDigit = true) (b : Bool) : mFloat b (s ++ c :: d) = false := by
  have hc := hd c (by simp)
  have hd' : ∀ x ∈ d, x.isDigit = true := fun x hx => hd x (by simp [hx])
  obtain ⟨e1, e2⟩ := dropSign_sign hs hc d
  obtain ⟨a, w, hw, ha⟩ := sign_head hs hc d
  have hdot : a ≠ '.' := not_dot ha
  have hcdot : c ≠ '.' := digit_ne hc (by decide)
  have h6 : s ++ c :: d ∉ [['.', 'n', 'a', 'n'], ['.', 'N', 'a', 'N'], ['.', 'N', 'A', 'N']] := by
    rw [hw]; simp [hdot]
  have h5 : c :: d ∉ [['.', 'i', 'n', 'f'], ['.', 'I', 'n', 'f'], ['.', 'I', 'N', 'F']] := by
    simp [hcdot]
  have h3 : mPoint b (s ++ c :: d) = false := by
    rw [hw]
    unfold mPoint
    split
    · rename_i heq
      simp only [List.cons.injEq] at heq
      exact absurd heq.1 hdot
    · rfl
  unfold mFloat
  have h7 : expo true [] = false := rfl
  simp only [h3, e1, dropWhile_all fun x hx => digU_of_digit (hd' x hx), h5, h6, h7]
  simp [sexTail]

/-- C81: whole numbers are read as the number they denote. -/
theorem C81_int {t : List Char} {i : ℤ} (h : IntText t i) : resolveText t = some (.int i) := by
  cases h with
  | @mk s d z hs hd h0 =>
    obtain ⟨hd0, hd⟩ := hd
    cases d with
    | nil => exact absurd rfl hd0
    | cons c d =>
      have hc := hd c (by simp)
      have hd' : ∀ x ∈ d, x.isDigit = true := fun x hx => hd x (by simp [hx])
      obtain ⟨e1, e2⟩ := dropSign_sign hs hc d
      obtain ⟨a, w, hw, ha⟩ := sign_head hs hc d
      obtain ⟨n1, n2, n3, n4, n5⟩ := number_no_word hw ha
      have hdot : a ≠ '.' := not_dot ha
      have hcdot : c ≠ '.' := digit_ne hc (by decide)
      have hf : ∀ b, mFloat b (s ++ c :: d) = false := digits_no_float hs hd
      have hi : mInt (s ++ c :: d) = true := by
        unfold mInt
        rw [e1]
        split
        · rename_i h; cases h
        · rename_i u h
          simp only [List.cons.injEq] at h
          rw [h.2] at hd'
          exact absurd (hd' 'b' (by simp)) (by decide)
        · rename_i u h
          simp only [List.cons.injEq] at h
          rw [h.2] at hd'
          exact absurd (hd' 'x' (by simp)) (by decide)
        · rename_i u _ _ h
          simp only [List.cons.injEq] at h
          rcases h0 with h0 | h0
          · simp only [List.cons.injEq] at h0
            rw [← h.2, h0.2]; rfl
          · rw [h.1] at h0; simp at h0
        · rename_i c' u _ _ _ h
          simp only [List.cons.injEq] at h
          rw [← h.1, ← h.2, hc, Bool.true_and, Bool.or_eq_true]
          left
          rw [List.all_eq_true]
          exact fun x hx => digU_of_digit (hd' x hx)
      have hu : '_' ∉ s ++ c :: d := by
        have := digits_no_underscore hd
        simp only [List.mem_append, not_or]
        exact ⟨sign_no_underscore hs, this⟩
      have hv : intVal (s ++ c :: d) = some (.int (z * (decimal (c :: d) : ℕ))) := by
        unfold intVal
        simp only [filter_underscore hu, e1]
        rcases h0 with h0 | h0
        · simp only [List.cons.injEq] at h0
          obtain ⟨rfl, rfl⟩ := h0
          simp [decimal]
        · have hne : c ≠ '0' := by rintro rfl; simp at h0
          have hcol : ':' ∉ c :: d := fun hm => absurd (hd _ hm) (by decide)
          split
          · rename_i h; simp only [List.cons.injEq] at h; exact absurd h.1 hne
          · rename_i h; simp only [List.cons.injEq] at h; exact absurd h.1 hne
          · rename_i h; simp only [List.cons.injEq] at h; exact absurd h.1 hne
          · rename_i h; simp only [List.cons.injEq] at h; exact absurd h.1 hne
          · rw [splitColon_none hcol, e2]
            simp only [List.foldl_cons, List.foldl_nil, natOf_digits hd, zero_mul, zero_add]
      unfold resolveText
      rw [if_neg n1, if_neg n2, hf false, if_neg (by decide), if_pos hi, hv]

lemma strNat_head {n : ℕ} : strNat n = ['0'] ∨ (strNat n).head? ≠ some '0' := by
  unfold strNat
  split_ifs with h
  · exact .inl rfl
  · right
    rw [List.map_reverse, List.head?_reverse, List.getLast?_map]
    intro e
    rw [Option.map_eq_some_iff] at e
    obtain ⟨x, hx, hc⟩ := e
    have hne : Nat.digits 10 n ≠ [] := Nat.digits_ne_nil_iff_ne_zero.2 h
    rw [List.getLast?_eq_some_getLast hne, Option.some.injEq] at hx
    have h0 : x ≠ 0 := by rw [← hx]; exact Nat.getLast_digit_ne_zero 10 h
    have hlt : x < 10 := by rw [← hx]; exact Nat.digits_lt_base (by norm_num) (List.getLast_mem hne)
    have := digitVal_digitChar ⟨x, hlt⟩
    simp only [hc] at this
    exact h0 this.symm

lemma decimal_eq (t : List Char) : decimal t = decVal t := by
  induction t with
  | nil => rfl
  | cons c t ih => simp only [decimal, decVal, digitVal, ih]

lemma strNat_ne (n : ℕ) : strNat n ≠ [] := by
  unfold strNat
  split_ifs with h
  · simp
  · rw [Ne, List.map_eq_nil_iff, List.reverse_eq_nil_iff]
    exact Nat.digits_ne_nil_iff_ne_zero.2 h

/-- What `str` writes for a whole number is a text for that number. -/
lemma strInt_text (i : ℤ) : IntText (strInt i) i := by
  have hd : Digits (strNat i.natAbs) := ⟨strNat_ne _, strNat_digits _⟩
  unfold strInt
  split_ifs with h
  · have := IntText.mk SignText.minus hd strNat_head
    rw [decimal_eq, strNat_val] at this
    have e : (-1 : ℤ) * (i.natAbs : ℕ) = i := by omega
    rwa [e] at this
  · have := IntText.mk SignText.none hd strNat_head
    rw [decimal_eq, strNat_val] at this
    have e : (1 : ℤ) * (i.natAbs : ℕ) = i := by omega
    rwa [e] at this

/-! ### Words -/

lemma slash_dropWhile {u : List Char} (h : '/' ∈ u) : '/' ∈ u.dropWhile digU := by
  induction u with
  | nil => simp at h
  | cons a u ih =>
    rw [List.dropWhile_cons]
    split_ifs with ha
    · rcases List.mem_cons.1 h with e | e
      · rw [← e] at ha; exact absurd ha (by decide)
      · exact ih e
    · exact h

lemma expo_slash {b : Bool} {u : List Char} (h : '/' ∈ u) : expo b u = false := by
  cases u with
  | nil => rfl
  | cons c t =>
    unfold expo
    rcases List.mem_cons.1 h with e | e
    · rw [← e]; rfl
    · have h1 : '/' ∈ dropSign t := by
        cases t with
        | nil => simp at e
        | cons a t =>
          unfold dropSign
          simp only
          split_ifs with ha
          · rcases List.mem_cons.1 e with f | f
            · rw [← f] at ha; exact absurd ha (by decide)
            · exact f
          · exact e
      have h2 : digits1 (dropSign t) = false := by
        unfold digits1
        rw [Bool.and_eq_false_iff]
        right
        rw [List.all_eq_false]
        exact ⟨'/', h1, by decide⟩
      simp [h2]

/-- Safe words do not look like numbers. -/
lemma word_no_number {c : Char} {t : List Char}
    (hc : c.isAlpha = true ∨ c = '_' ∨ c = '/' ∨ (c = '.' ∧ '/' ∈ t)) :
    c.isDigit = false ∧ c ≠ '-' ∧ c ≠ '+' ∧ (∀ b, mFloat b (c :: t) = false) ∧ mInt (c :: t) = false := by
  have hcd : c.isDigit = false := by
    rw [← Bool.not_eq_true, isDigit_iff]
    rcases hc with h | rfl | rfl | ⟨rfl, -⟩
    · rw [isAlpha_iff] at h; omega
    · decide
    · decide
    · decide
  have hm : c ≠ '-' := by
    rintro rfl; revert hc; simp
  have hp : c ≠ '+' := by
    rintro rfl; revert hc; simp
  have e : dropSign (c :: t) = c :: t := by simp [dropSign, hm, hp]
  refine ⟨hcd, hm, hp, ?_, ?_⟩
  · intro b
    have hw : ∀ l : List (List Char), (∀ w ∈ l, w.head? = some '.' ∧ '/' ∉ w) → c :: t ∉ l := by
      intro l hl hmem
      obtain ⟨h1, h2⟩ := hl _ hmem
      simp only [List.head?_cons, Option.some.injEq] at h1
      rcases hc with h | h | h | ⟨-, h⟩
      · rw [h1] at h; exact absurd h (by decide)
      · rw [h1] at h; exact absurd h (by decide)
      · rw [h1] at h; exact absurd h (by decide)
      · exact h2 (by simp [h])
    have h5 := hw [['.', 'i', 'n', 'f'], ['.', 'I', 'n', 'f'], ['.', 'I', 'N', 'F']] (by decide)
    have h6 := hw [['.', 'n', 'a', 'n'], ['.', 'N', 'a', 'N'], ['.', 'N', 'A', 'N']] (by decide)
    have h3 : mPoint b (c :: t) = false := by
      unfold mPoint
      split
      · rename_i a u heq
        simp only [List.cons.injEq] at heq
        obtain ⟨rfl, rfl⟩ := heq
        have hs : '/' ∈ a :: u := by
          rcases hc with h | h | h | ⟨-, h⟩
          · exact absurd h (by decide)
          · exact absurd h (by decide)
          · exact absurd h (by decide)
          · exact h
        rcases List.mem_cons.1 hs with f | f
        · rw [← f]; cases b <;> rfl
        · have g := slash_dropWhile f
          rw [expo_slash g]
          have : (u.dropWhile digU).isEmpty = false := by
            cases hu : u.dropWhile digU with
            | nil => rw [hu] at g; simp at g
            | cons => rfl
          rw [this]
          simp
      · rfl
    unfold mFloat
    simp only [h3, e, hcd, h5, h6]
    simp
  · unfold mInt
    rw [e]
    split
    · rfl
    · rename_i h; simp only [List.cons.injEq] at h; rw [h.1] at hcd; exact absurd hcd (by decide)
    · rename_i h; simp only [List.cons.injEq] at h; rw [h.1] at hcd; exact absurd hcd (by decide)
    · rename_i h; simp only [List.cons.injEq] at h; rw [h.1] at hcd; exact absurd hcd (by decide)
    · rename_i c' u _ _ _ h
      simp only [List.cons.injEq] at h
      rw [← h.1, hcd, Bool.false_and]

lemma not_reserved {s : String} (h : s ∉ reserved) (h0 : s.toList ≠ []) (h1 : s.toList ≠ ['~']) :
    s.toList ∉ trueWords ∧ s.toList ∉ falseWords ∧ s.toList ∉ nullWords := by
  have key : ∀ w ∈ trueWords ++ falseWords ++ nullWords, w = [] ∨ w = ['~'] ∨ String.ofList w ∈ reserved := by
    decide +kernel
  have := key s.toList
  simp only [h0, h1, String.ofList_toList, h, or_self, imp_false, List.mem_append, not_or] at this
  exact ⟨this.1.1, this.1.2, this.2⟩

lemma natOf_octal {t : List Char} (h : ∀ c ∈ t, c.isDigit = true) : natOf 8 t = octal t := by
  have key : ∀ (t : List Char) (a : ℕ), (∀ c ∈ t, c.isDigit = true) →
      t.foldl (fun n c => n * 8 + charVal c) a = a * 8 ^ t.length + octal t := by
    intro t
    induction t with
    | nil => intro a _; simp [octal]
    | cons c t ih =>
      intro a h
      rw [List.foldl_cons, ih _ (fun x hx => h x (by simp [hx]))]
      have : charVal c = c.toNat - 48 := by
        unfold charVal
        rw [if_pos (h c (by simp))]
        rfl
      rw [this]
      simp only [List.length_cons, octal, pow_succ]
      ring
  have := key t 0 h
  simpa [natOf] using this

/-- C81: a whole number written with a zero in front is read with base eight, or as a string if one of its digits is 8 or
9. -/
theorem C81_leading_zero {s d : List Char} {z : ℤ} (hs : SignText s z) (hd : Digits d) :
    ((∀ c ∈ d, c ≠ '8' ∧ c ≠ '9') → resolveText (s ++ '0' :: d) = some (.int (z * octal d))) ∧
    (('8' ∈ d ∨ '9' ∈ d) → resolveText (s ++ '0' :: d) = some (.str (String.ofList (s ++ '0' :: d)))) := by
  obtain ⟨hd0, hd⟩ := hd
  have hz : ('0' : Char).isDigit = true := by decide
  have hall : ∀ x ∈ '0' :: d, x.isDigit = true := by
    intro x hx
    rcases List.mem_cons.1 hx with rfl | hx
    exacts [hz, hd x hx]
  obtain ⟨e1, e2⟩ := dropSign_sign hs hz d
  obtain ⟨a, w, hw, ha⟩ := sign_head hs hz d
  obtain ⟨n1, n2, n3, n4, n5⟩ := number_no_word hw ha
  have hf := digits_no_float hs hall
  have hi : mInt (s ++ '0' :: d) = d.all (fun c => (c.isDigit && decide (c.toNat ≤ '7'.toNat)) || c == '_') := by
    unfold mInt
    rw [e1]
    split
    · rename_i h; cases h
    · rename_i u h
      simp only [List.cons.injEq, true_and] at h
      rw [h] at hd
      exact absurd (hd 'b' (by simp)) (by decide)
    · rename_i u h
      simp only [List.cons.injEq, true_and] at h
      rw [h] at hd
      exact absurd (hd 'x' (by simp)) (by decide)
    · rename_i u _ _ h
      simp only [List.cons.injEq, true_and] at h
      rw [h]
    · rename_i c' u _ _ hn h
      simp only [List.cons.injEq] at h
      exact absurd h.1.symm (by simpa using hn)
  have hu : '_' ∉ s ++ '0' :: d := by
    have := digits_no_underscore hall
    simp only [List.mem_append, not_or]
    exact ⟨sign_no_underscore hs, this⟩
  constructor
  · intro h8
    have hi' : mInt (s ++ '0' :: d) = true := by
      rw [hi, List.all_eq_true]
      intro c hc
      have h1 := (isDigit_iff c).1 (hd c hc)
      obtain ⟨h2, h3⟩ := h8 c hc
      have h4 : c.toNat ≠ '8'.toNat := fun e => h2 (Char.toNat_inj.1 e)
      have h5 : c.toNat ≠ '9'.toNat := fun e => h3 (Char.toNat_inj.1 e)
      have h6 : ('8' : Char).toNat = 56 := rfl
      have h7 : ('9' : Char).toNat = 57 := rfl
      have h8 : ('7' : Char).toNat = 55 := rfl
      simp only [hd c hc, Bool.true_and, Bool.or_eq_true, decide_eq_true_eq]
      left
      omega
    have hv : intVal (s ++ '0' :: d) = some (.int (z * (octal d : ℕ))) := by
      unfold intVal
      simp only [filter_underscore hu, e1]
      split
      · rename_i h
        simp only [List.cons.injEq, true_and] at h
        exact absurd h hd0
      · rename_i v h
        simp only [List.cons.injEq, true_and] at h
        rw [h] at hd
        exact absurd (hd 'b' (by simp)) (by decide)
      · rename_i v h
        simp only [List.cons.injEq, true_and] at h
        rw [h] at hd
        exact absurd (hd 'x' (by simp)) (by decide)
      · rename_i v _ _ _ h
        simp only [List.cons.injEq, true_and] at h
        rw [← h, e2, natOf_octal hall]
        simp [octal]
      · rename_i hn
        exact absurd rfl (hn d)
    unfold resolveText
    rw [if_neg n1, if_neg n2, hf, if_neg (by simp), if_pos hi', hv]
  · intro h8
    have hi' : mInt (s ++ '0' :: d) = false := by
      rw [hi, List.all_eq_false]
      rcases h8 with h | h
      · exact ⟨'8', h, by decide⟩
      · exact ⟨'9', h, by decide⟩
    have hdate : mDate (s ++ '0' :: d) = false := by
      cases hs
      · rw [List.nil_append]
        apply mDate_false
        rcases d with _ | ⟨d1, _ | ⟨d2, _ | ⟨d3, _ | ⟨d4, d5⟩⟩⟩⟩ <;> simp only [datePrefix]
        have : (d4 == '-') = false := by
          simpa using digit_ne (hd d4 (by simp)) (by decide : ('-').isDigit = false)
        simp [this]
      · exact mDate_head (by decide)
      · exact mDate_head (by decide)
    unfold resolveText
    rw [if_neg n1, if_neg n2, hf, if_neg (by simp), hi', if_neg (by simp), if_neg n4, if_neg n3, hdate,
      if_neg (by simp), if_neg n5, hf, if_neg (by simp)]

/-- C81: words, phrases and paths are read as themselves. -/
theorem C81_string {s : String} (h : SafeString s) : resolveText s.toList = some (.str s) := by
  obtain ⟨⟨c, t, hs, hc⟩, -, -, hr⟩ := h
  obtain ⟨hcd, hm, hp, hf, hi⟩ := word_no_number hc
  have h1 : s.toList ≠ ['~'] := by
    rw [hs]; simp only [ne_eq, List.cons.injEq, not_and]
    rintro rfl; revert hc; simp
  obtain ⟨n1, n2, n3⟩ := not_reserved hr (by simp [hs]) h1
  have n4 : s.toList ≠ ['<', '<'] := by
    rw [hs]; simp only [ne_eq, List.cons.injEq, not_and]
    rintro rfl; revert hc; simp
  have n5 : s.toList ≠ ['='] := by
    rw [hs]; simp only [ne_eq, List.cons.injEq, not_and]
    rintro rfl; revert hc; simp
  have hd : mDate s.toList = false := by rw [hs]; exact mDate_head hcd
  unfold resolveText
  rw [if_neg n1, if_neg n2, if_neg (by rw [hs, hf]; decide), if_neg (by rw [hs, hi]; decide), if_neg n4, if_neg n3,
    if_neg (by rw [hd]; decide), if_neg n5, if_neg (by rw [hs, hf]; decide), String.ofList_toList]

/-! ### Plain scalars -/

/-- Characters that have no meaning of their own inside a plain scalar. -/
def Inner (c : Char) : Prop := printable c = true ∧ c ≠ ':' ∧ c ≠ '#' ∧ c ≠ '\n'

lemma plainInside_of {t : List Char} (h : ∀ c ∈ t, Inner c) (hl : t.getLast? ≠ some ' ') :
    plainInside t = true := by
  induction t with
  | nil => rfl
  | cons c t ih =>
    obtain ⟨h1, h2, h3, -⟩ := h c (by simp)
    cases t with
    | nil =>
      have : c ≠ ' ' := by rintro rfl; exact hl rfl
      simp [plainInside, h1, h2, this]
    | cons d t =>
      obtain ⟨g1, g2, g3, -⟩ := h d (by simp)
      have hl' : (d :: t).getLast? ≠ some ' ' := by rwa [List.getLast?_cons_cons] at hl
      have := ih (fun x hx => h x (by simp only [List.mem_cons] at hx ⊢; exact .inr hx)) hl'
      simp [plainInside, h1, h2, g3, this]

lemma alnum_iff (c : Char) : c.isAlphanum = true ↔ c.isAlpha = true ∨ c.isDigit = true := by
  simp [Char.isAlphanum]

lemma char_ne {c d : Char} (h : c.toNat ≠ d.toNat) : c ≠ d := fun e => h (by rw [e])

lemma inner_alnum {c : Char} (h : c.isAlphanum = true) : Inner c ∧ c ∉ indicators ∧ c ≠ ' ' := by
  rw [alnum_iff, isAlpha_iff, isDigit_iff] at h
  have ne : ∀ d : Char, (d.toNat < 48 ∨ (57 < d.toNat ∧ d.toNat < 65) ∨ (90 < d.toNat ∧ d.toNat < 97) ∨
      122 < d.toNat) → c ≠ d := by
    intro d hd
    apply char_ne
    omega
  refine ⟨⟨?_, ne _ (by decide), ne _ (by decide), ne _ (by decide)⟩, ?_, ne _ (by decide)⟩
  · unfold printable
    rw [Bool.and_eq_true, decide_eq_true_eq, decide_eq_true_eq]
    omega
  · intro hm
    have : ∀ d ∈ indicators, (d.toNat < 48 ∨ (57 < d.toNat ∧ d.toNat < 65) ∨ (90 < d.toNat ∧ d.toNat < 97) ∨
      122 < d.toNat) := by decide
    exact ne c (this c hm) rfl

lemma inner_mem {c : Char} (h : c ∈ ['_', '/', '.', '-', ' ', '+']) : Inner c := by
  have : ∀ c ∈ ['_', '/', '.', '-', ' ', '+'], printable c = true ∧ c ≠ ':' ∧ c ≠ '#' ∧ c ≠ '\n' := by decide
  exact this c h

/-- Characters of numbers. -/
def NumChar (c : Char) : Prop := c.isAlphanum = true ∨ c = '.' ∨ c = '-' ∨ c = '+'

lemma digit_num {c : Char} (h : c.isDigit = true) : NumChar c := .inl ((alnum_iff c).2 (.inr h))

lemma sign_num {s : List Char} {z : ℤ} (hs : SignText s z) : ∀ c ∈ s, NumChar c := by
  unfold NumChar
  cases hs <;> simp

lemma exp_num {x : List Char} {e : ℤ} (hx : ExpText x e) : ∀ c ∈ x, NumChar c := by
  cases hx with
  | mk hx hs hd =>
    intro c hc
    rw [List.mem_cons, List.mem_append] at hc
    rcases hc with rfl | hc | hc
    · rcases hx with rfl | rfl <;> exact .inl (by decide)
    · exact sign_num hs c hc
    · exact digit_num (hd.2 c hc)

/-- A text of a number: its beginning and its characters. -/
lemma number_shape {s d r : List Char} {z : ℤ} (hs : SignText s z) (hd : Digits d) (hr : ∀ c ∈ r, NumChar c) :
    (∀ c ∈ s ++ (d ++ r), NumChar c) ∧ ((∃ c u, s ++ (d ++ r) = c :: u ∧ c.isDigit = true) ∨
      ∃ a c u, s ++ (d ++ r) = a :: c :: u ∧ (a = '+' ∨ a = '-') ∧ c.isDigit = true) := by
  obtain ⟨h0, h1⟩ := hd
  refine ⟨?_, ?_⟩
  · intro c hc
    rw [List.mem_append, List.mem_append] at hc
    rcases hc with h | h | h
    exacts [sign_num hs c h, digit_num (h1 c h), hr c h]
  · cases d with
    | nil => exact absurd rfl h0
    | cons c d =>
      have := h1 c (by simp)
      cases hs
      · exact .inl ⟨c, d ++ r, rfl, this⟩
      · exact .inr ⟨'+', c, d ++ r, rfl, .inl rfl, this⟩
      · exact .inr ⟨'-', c, d ++ r, rfl, .inr rfl, this⟩

/-- Texts that the writer may put after a key. -/
def Writable (t : List Char) : Prop := t ≠ [] ∧ plainScalar t = true ∧ (∀ c ∈ t, c ≠ '\n') ∧
  t.head? ≠ some ' ' ∧ t.getLast? ≠ some ' '

lemma num_inner {c : Char} (h : NumChar c) : Inner c ∧ c ≠ ' ' := by
  rcases h with h | rfl | rfl | rfl
  · exact ⟨(inner_alnum h).1, (inner_alnum h).2.2⟩
  · exact ⟨inner_mem (by simp), by decide⟩
  · exact ⟨inner_mem (by simp), by decide⟩
  · exact ⟨inner_mem (by simp), by decide⟩

lemma plain_head {c : Char} {t : List Char} (hc : c ∉ indicators) (h : plainInside (c :: t) = true) :
    plainScalar (c :: t) = true := by
  cases t with
  | nil => simp [plainScalar, hc, h]
  | cons d t => simp [plainScalar, hc, h]

lemma number_writable {t : List Char} (h : ∀ c ∈ t, NumChar c) (hh : (∃ c u, t = c :: u ∧ c.isDigit = true) ∨
      ∃ a c u, t = a :: c :: u ∧ (a = '+' ∨ a = '-') ∧ c.isDigit = true) : Writable t := by
  have hl : t.getLast? ≠ some ' ' := fun e => (num_inner (h ' ' (List.mem_of_getLast? e))).2 rfl
  have hi := plainInside_of (fun c hc => (num_inner (h c hc)).1) hl
  refine ⟨?_, ?_, fun c hc => (num_inner (h c hc)).1.2.2.2, ?_, hl⟩
  · rcases hh with ⟨c, u, rfl, -⟩ | ⟨a, c, u, rfl, -⟩ <;> simp
  · rcases hh with ⟨c, u, rfl, hc⟩ | ⟨a, c, u, rfl, ha, hc⟩
    · exact plain_head (inner_alnum ((alnum_iff c).2 (.inr hc))).2.1 hi
    · rcases ha with rfl | rfl
      · exact plain_head (by decide) hi
      · have : c ≠ ' ' := digit_ne hc (by decide)
        simp [plainScalar, hi, this]
  · exact fun e => (num_inner (h ' ' (List.mem_of_head? e))).2 rfl

lemma int_writable {t : List Char} {i : ℤ} (h : IntText t i) : Writable t := by
  cases h with
  | @mk s d z hs hd h0 =>
    have := number_shape hs hd (r := []) (by simp)
    rw [List.append_nil] at this
    exact number_writable this.1 this.2

lemma real_writable {t : List Char} {q : ℚ} (h : RealText t q) : Writable t := by
  cases h with
  | @point s d f z hs hd hf =>
    have := number_shape hs hd (r := '.' :: f) (by
      intro c hc
      rcases List.mem_cons.1 hc with rfl | hc
      exacts [.inr (.inl rfl), digit_num (hf c hc)])
    exact number_writable this.1 this.2
  | @exp s d x z e hs hd hx =>
    have := number_shape hs hd (exp_num hx)
    exact number_writable this.1 this.2
  | @both s d f x z e hs hd hf hx =>
    have := number_shape hs hd (r := '.' :: (f ++ x)) (by
      intro c hc
      rw [List.mem_cons, List.mem_append] at hc
      rcases hc with rfl | hc | hc
      exacts [.inr (.inl rfl), digit_num (hf c hc), exp_num hx c hc])
    exact number_writable this.1 this.2

lemma string_writable {s : String} (h : SafeString s) : Writable s.toList := by
  obtain ⟨⟨c, t, hs, hc⟩, ha, hl, -⟩ := h
  have hin : ∀ c ∈ s.toList, Inner c := by
    intro c hc
    rcases ha c hc with h | h
    · exact (inner_alnum h).1
    · apply inner_mem
      simp only [List.mem_cons, List.not_mem_nil, or_false] at h ⊢
      tauto
  have hci : c ∉ indicators := by
    rcases hc with h | rfl | rfl | ⟨rfl, -⟩
    · exact (inner_alnum ((alnum_iff c).2 (.inl h))).2.1
    · decide
    · decide
    · decide
  have hi := plainInside_of hin hl
  refine ⟨by simp [hs], ?_, fun c hc => (hin c hc).2.2.2, ?_, hl⟩
  · rw [hs] at hi ⊢
    exact plain_head hci hi
  · rw [hs]
    simp only [List.head?_cons, ne_eq, Option.some.injEq]
    rintro rfl
    exact hci (by decide)

lemma key_string {k : String} (h : SafeKey k) : SafeString k := by
  obtain ⟨⟨c, t, hk, hc⟩, ha, -, hr⟩ := h
  refine ⟨⟨c, t, hk, ?_⟩, ?_, ?_, hr⟩
  · rcases hc with h | h
    exacts [.inl h, .inr (.inl h)]
  · intro c hc
    rcases ha c hc with h | h
    · exact .inl h
    · right; simp [h]
  · intro e
    rcases ha ' ' (List.mem_of_getLast? e) with h | h <;> exact absurd h (by decide)

lemma keyOf_safe {k : String} (h : SafeKey k) : keyOf k.toList = some k := by
  have hs := key_string h
  obtain ⟨-, hp, -, -, -⟩ := string_writable hs
  have hd : k.toList.head? ≠ some '-' := by
    obtain ⟨⟨c, t, hk, hc⟩, -⟩ := h
    rw [hk]
    simp only [List.head?_cons, ne_eq, Option.some.injEq]
    rintro rfl
    revert hc; decide
  unfold keyOf
  rw [hp, C81_string hs]
  simp [h.2.2.1, hd]

lemma splitKey_safe {k : List Char} (h : ':' ∉ k) (t : List Char) :
    splitKey (k ++ ':' :: ' ' :: t) = some (k, t) := by
  induction k with
  | nil => simp [splitKey]
  | cons c k ih =>
    simp only [List.mem_cons, not_or] at h
    have hc : c ≠ ':' := fun e => h.1 e.symm
    have := ih h.2
    cases hk : k ++ ':' :: ' ' :: t with
    | nil => simp at hk
    | cons d r =>
      rw [List.cons_append, hk]
      rw [hk] at this
      unfold splitKey
      rw [if_neg (fun e => hc e.1), this]

lemma trim_safe {t : List Char} (h1 : t.head? ≠ some ' ') (h2 : t.getLast? ≠ some ' ') : trimSpaces t = t := by
  have key : ∀ u : List Char, u.head? ≠ some ' ' → u.dropWhile (fun x => decide (x = ' ')) = u := by
    intro u hu
    cases u with
    | nil => rfl
    | cons a u =>
      have : a ≠ ' ' := by rintro rfl; exact hu rfl
      simp [List.dropWhile_cons, this]
  unfold trimSpaces
  rw [key t h1, key _ (by rwa [List.head?_reverse]), List.reverse_reverse]

lemma valueOf_writable {t : List Char} (h : Writable t) : valueOf t = resolveText t := by
  obtain ⟨-, h1, -, h3, h4⟩ := h
  unfold valueOf
  simp only [trim_safe h3 h4]
  rw [if_pos (.inr h1)]

/-! ### Lines -/

lemma linesOf_cons {c : Char} (h : c ≠ '\n') (t : List Char) : linesOf (c :: t) =
    match linesOf t with
    | [] => [[c]]
    | l :: ls => (c :: l) :: ls := by
  rw [linesOf, if_neg h]
  cases linesOf t <;> rfl

lemma linesOf_break (t : List Char) : linesOf ('\n' :: t) = [] :: linesOf t := by
  rw [linesOf, if_pos rfl]

lemma linesOf_line {l : List Char} (h : ∀ c ∈ l, c ≠ '\n') (r : List Char) :
    linesOf (l ++ '\n' :: r) = l :: linesOf r := by
  induction l with
  | nil => simp [linesOf]
  | cons c l ih =>
    rw [List.cons_append, linesOf_cons (h c (by simp)), ih fun x hx => h x (by simp [hx])]

lemma linesOf_append {a : List Char} (h : a = [] ∨ a.getLast? = some '\n') (b : List Char) :
    linesOf (a ++ b) = linesOf a ++ linesOf b := by
  induction a with
  | nil => rfl
  | cons c a ih =>
    rcases h with h | h
    · cases h
    cases a with
    | nil =>
      have : c = '\n' := by simpa using h
      subst this
      simp [linesOf]
    | cons d a =>
      rw [List.getLast?_cons_cons] at h
      have := ih (.inr h)
      rw [List.cons_append]
      by_cases hc : c = '\n'
      · subst hc
        rw [linesOf_break, linesOf_break, this]; rfl
      · rw [linesOf_cons hc, linesOf_cons hc, this]
        have hne : linesOf (d :: a) ≠ [] := by
          unfold linesOf
          split_ifs
          · simp
          · split <;> simp
        cases hl : linesOf (d :: a) with
        | nil => exact absurd hl hne
        | cons l ls => rfl

lemma loadLines_append {d e : Dict Val} {a : List (List Char)} (h : loadLines d a = some e) (b : List (List Char)) :
    loadLines d (a ++ b) = loadLines e b := by
  induction a generalizing d with
  | nil =>
    simp only [loadLines, Option.some.injEq] at h
    rw [h]; rfl
  | cons l a ih =>
    rw [List.cons_append]
    rw [loadLines] at h ⊢
    cases hl : loadLine l with
    | none => rw [hl] at h; cases h
    | some q =>
      rw [hl] at h
      exact ih h

/-- C81: read as a string is a text without another meaning, and as itself. -/
theorem C81_reads_string (t : List Char) (s : String) :
    resolveText t = some (.str s) ↔ NoOtherMeaning t ∧ s = String.ofList t := resolve_str t s

/-- C81: words, phrases and paths survive. -/
theorem C81_safe_survives {s : String} (h : SafeString s) : Survives s :=
  ⟨(plain_iff _).1 (string_writable h).2.1, ((resolve_str _ _).1 (C81_string h)).1⟩

lemma survives_text {s : String} (h : Survives s) : Writable s.toList ∧ resolveText s.toList = some (.str s) := by
  obtain ⟨hp, hm⟩ := h
  refine ⟨⟨?_, (plain_iff _).2 hp, ?_, ?_, hp.last.1⟩, (resolve_str _ _).2 ⟨hm, String.ofList_toList.symm⟩⟩
  · obtain ⟨c, u, e, -⟩ := hp.first
    rw [e]; simp
  · rintro c hc rfl
    exact absurd (hp.chars _ hc).1 (by decide)
  · obtain ⟨c, u, e, h, -⟩ := hp.first
    rw [e]
    simp only [List.head?_cons, ne_eq, Option.some.injEq]
    rintro rfl
    exact h (by decide)

/-- Values that the writer stores: nothing, truth values, whole numbers, floats whose text is one of that
number, and strings that are plain scalars without another meaning. -/
def Storable (repr : ℚ → List Char) : Val → Prop
  | .null => True
  | .bool _ => True
  | .int _ => True
  | .float q => RealText (repr q) q
  | .str s => Survives s
  | .other => False

lemma storable_text {repr : ℚ → List Char} {v : Val} (h : Storable repr v) :
    ∃ t, textOf repr v = some t ∧ Writable t ∧ resolveText t = some v := by
  have hw : ∀ t ∈ [['n', 'u', 'l', 'l'], ['T', 'r', 'u', 'e'], ['F', 'a', 'l', 's', 'e']], Writable t := by
    unfold Writable; decide
  cases v with
  | null => exact ⟨_, rfl, hw _ (by simp), by decide +kernel⟩
  | bool b =>
    cases b
    · exact ⟨_, rfl, hw _ (by simp), by decide +kernel⟩
    · exact ⟨_, rfl, hw _ (by simp), by decide +kernel⟩
  | int i => exact ⟨_, rfl, int_writable (strInt_text i), C81_int (strInt_text i)⟩
  | float q => exact ⟨_, rfl, real_writable h, C81_real h⟩
  | str s => exact ⟨_, rfl, (survives_text h).1, (survives_text h).2⟩
  | other => exact absurd h id

lemma loadLine_safe {k : String} {t : List Char} {v : Val} (hk : SafeKey k) (ht : Writable t)
    (hv : resolveText t = some v) : loadLine (k.toList ++ ':' :: ' ' :: t) = some (k, v) := by
  have hc : ':' ∉ k.toList := by
    intro hm
    rcases hk.2.1 _ hm with h | h <;> exact absurd h (by decide)
  unfold loadLine
  rw [splitKey_safe hc]
  simp only [keyOf_safe hk, valueOf_writable ht, hv]

lemma plainInside_tail {c : Char} {t : List Char} (h : plainInside (c :: t) = true) : plainInside t = true := by
  cases t with
  | nil => rfl
  | cons d t => simp only [plainInside, Bool.and_eq_true] at h; exact h.2

/-- C81: what is read as the value of a key never contains the beginning of a comment, a second key or a character
that is not printable, and does not end with a colon. -/
theorem C81_plain {t : List Char} (h : plainScalar t = true) :
    (∀ a b, t ≠ a ++ ' ' :: '#' :: b) ∧ (∀ a b, t ≠ a ++ ':' :: ' ' :: b) ∧ t.getLast? ≠ some ':' ∧
      ∀ c ∈ t, 32 ≤ c.toNat ∧ c.toNat < 127 := by
  have hp : plainInside t = true := by
    unfold plainScalar at h
    split at h
    · cases h
    · simp only [Bool.and_eq_true] at h; exact h.2
    · simp only [Bool.and_eq_true] at h; exact h.2
  clear h
  induction t with
  | nil => simp
  | cons c t ih =>
    obtain ⟨i1, i2, i3, i4⟩ := ih (plainInside_tail hp)
    cases t with
    | nil =>
      simp only [plainInside, printable, Bool.and_eq_true, decide_eq_true_eq, ne_eq] at hp
      obtain ⟨⟨⟨p1, p2⟩, p3⟩, p4⟩ := hp
      refine ⟨?_, ?_, by simpa using p3, by simpa using ⟨p1, p2⟩⟩ <;>
      · rintro (_ | ⟨x, a⟩) b hab <;> simp at hab
    | cons d t =>
      simp only [plainInside, printable, Bool.and_eq_true, decide_eq_true_eq, Bool.not_eq_true', Bool.and_eq_false_iff,
        beq_eq_false_iff_ne] at hp
      obtain ⟨⟨⟨⟨p1, p2⟩, p3⟩, p4⟩, -⟩ := hp
      refine ⟨?_, ?_, ?_, ?_⟩
      · rintro (_ | ⟨x, a⟩) b hab
        · simp only [List.nil_append, List.cons.injEq] at hab
          rcases p4 with p4 | p4
          · exact p4 hab.1
          · exact p4 hab.2.1
        · simp only [List.cons_append, List.cons.injEq] at hab
          exact i1 a b hab.2
      · rintro (_ | ⟨x, a⟩) b hab
        · simp only [List.nil_append, List.cons.injEq] at hab
          rcases p3 with p3 | p3
          · exact p3 hab.1
          · exact p3 hab.2.1
        · simp only [List.cons_append, List.cons.injEq] at hab
          exact i2 a b hab.2
      · rw [List.getLast?_cons_cons]; exact i3
      · intro x hx
        rcases List.mem_cons.1 hx with rfl | hx
        · exact ⟨p1, p2⟩
        · exact i4 x hx

/-- C81: the words for infinity (with any sign) and for an undefined number are never read as strings. Their values
are outside of the model. -/
theorem C81_special {t : List Char} (h : dropSign t ∈ ([".inf", ".Inf", ".INF"].map String.toList) ∨
    t ∈ ([".nan", ".NaN", ".NAN"].map String.toList)) : ∀ s, resolveText t ≠ some (.str s) := by
  intro s
  have hf : mFloat false t = true := by
    unfold mFloat
    simp only [List.map_cons, List.map_nil] at h
    simp only [Bool.or_eq_true, decide_eq_true_eq]
    rcases h with h | h
    · exact .inl (.inr h)
    · exact .inr h
  have h1 : t ∉ trueWords ∧ t ∉ falseWords := by
    constructor <;>
    · intro hm
      revert h
      simp only [trueWords, falseWords, List.mem_cons, List.not_mem_nil, or_false] at hm
      rcases hm with rfl | rfl | rfl | rfl | rfl | rfl | rfl | rfl | rfl <;> decide
  unfold resolveText
  rw [if_neg h1.1, if_neg h1.2, if_pos hf]
  unfold floatVal
  simp only
  split <;> simp

/-- C81: what is written for a configuration loads as that configuration, put on top of what the file had
before. Partial: of strings only plain scalars without another meaning. -/
theorem C81_config_partial {repr : ℚ → List Char} {d : Dict Val}
    (hd : ∀ kv ∈ d, SafeKey kv.1 ∧ Storable repr kv.2) {old : List Char} {d0 : Dict Val}
    (hold : old = [] ∨ old.getLast? = some '\n') (h0 : loadText old = some d0) :
    ∃ t, writeConfig repr d = some t ∧ loadText (old ++ t) = some (dupdate d0 d) ∧
      (old ++ t = [] ∨ (old ++ t).getLast? = some '\n') := by
  have key : ∀ (d d0 : Dict Val), (∀ kv ∈ d, SafeKey kv.1 ∧ Storable repr kv.2) →
      ∃ t, writeConfig repr d = some t ∧ loadLines d0 (linesOf t) = some (dupdate d0 d) ∧
        (t = [] ∨ t.getLast? = some '\n') := by
    intro d
    induction d with
    | nil => intro d0 _; exact ⟨[], rfl, rfl, .inl rfl⟩
    | cons kv d ih =>
      intro d0 h
      obtain ⟨k, v⟩ := kv
      obtain ⟨hk, hv⟩ := h (k, v) (by simp)
      obtain ⟨t, ht, hw, hr⟩ := storable_text hv
      obtain ⟨r, hr1, hr2, hr3⟩ := ih (dset d0 k v) fun kv hkv => h kv (by simp [hkv])
      refine ⟨k.toList ++ [':', ' '] ++ t ++ ['\n'] ++ r, ?_, ?_, ?_⟩
      · simp only [writeConfig, ht, hr1]
      · have e : k.toList ++ [':', ' '] ++ t ++ ['\n'] ++ r = (k.toList ++ ':' :: ' ' :: t) ++ '\n' :: r := by simp
        rw [e, linesOf_line]
        · unfold loadLines
          rw [loadLine_safe hk hw hr]
          exact hr2
        · intro c hc
          simp only [List.mem_append, List.mem_cons] at hc
          rcases hc with h | rfl | rfl | h
          · exact (string_writable (key_string hk)).2.2.1 c h
          · decide
          · decide
          · exact hw.2.2.1 c h
      · right
        rcases hr3 with rfl | h
        · rw [List.append_nil, List.getLast?_append]; rfl
        · rw [List.getLast?_append, h]; rfl
  obtain ⟨t, h1, h2, h3⟩ := key d d0 hd
  refine ⟨t, h1, ?_, ?_⟩
  · unfold loadText at h0 ⊢
    rw [linesOf_append hold, loadLines_append h0, h2]
  · rcases h3 with rfl | h
    · rcases hold with rfl | h
      · exact .inl rfl
      · right; simpa using h
    · right
      rw [List.getLast?_append, h]; rfl

lemma loadText_one {k : String} (hk : SafeKey k) {s : List Char} (hs : '\n' ∉ s) :
    loadText (k.toList ++ [':', ' '] ++ s ++ ['\n'] ++ []) =
      match valueOf s with
      | some v => some [(k, v)]
      | none => none := by
  have hc : ':' ∉ k.toList := by
    intro hm
    rcases hk.2.1 _ hm with h | h <;> exact absurd h (by decide)
  have e : k.toList ++ [':', ' '] ++ s ++ ['\n'] ++ [] = (k.toList ++ ':' :: ' ' :: s) ++ '\n' :: [] := by simp
  unfold loadText
  rw [e, linesOf_line]
  · unfold loadLines loadLine
    rw [splitKey_safe hc]
    simp only [keyOf_safe hk]
    cases valueOf s <;> rfl
  · intro c h
    simp only [List.mem_append, List.mem_cons] at h
    rcases h with h | rfl | rfl | h
    · exact (string_writable (key_string hk)).2.2.1 c h
    · decide
    · decide
    · rintro rfl
      exact hs h

/-- C81: exactly the plain scalars without another meaning are strings that load as what was written. -/
theorem C81_string_iff {repr : ℚ → List Char} {k s : String} (hk : SafeKey k)
    (hs : ∀ c ∈ s.toList, 32 ≤ c.toNat ∧ c.toNat ≤ 126) :
    (∃ t, writeConfig repr [(k, .str s)] = some t ∧ loadText t = some [(k, .str s)]) ↔ Survives s := by
  have hn : '\n' ∉ s.toList := fun h => absurd (hs _ h).1 (by decide)
  have e : writeConfig repr [(k, .str s)] = some (k.toList ++ [':', ' '] ++ s.toList ++ ['\n'] ++ []) := rfl
  rw [e]
  constructor
  · rintro ⟨t, ht, hl⟩
    cases ht
    rw [loadText_one hk hn] at hl
    cases hv : valueOf s.toList with
    | none => rw [hv] at hl; cases hl
    | some v =>
      rw [hv] at hl
      simp only [Option.some.injEq, List.cons.injEq, Prod.mk.injEq, true_and, and_true] at hl
      subst hl
      unfold valueOf at hv
      simp only at hv
      split_ifs at hv with h
      obtain ⟨hm, hs'⟩ := (resolve_str _ _).1 hv
      have e' : s.toList = trimSpaces s.toList := by
        conv_lhs => rw [hs', String.toList_ofList]
      rw [← e'] at h hm
      rcases h with h | h
      · rw [h] at hm
        exact absurd ((words_yaml []).1 (by decide)) hm.1
      · exact ⟨(plain_iff _).1 h, hm⟩
  · intro h
    obtain ⟨hw, hr⟩ := survives_text h
    refine ⟨_, rfl, ?_⟩
    rw [loadText_one hk hn, valueOf_writable hw, hr]

/-- C81: spaces at the ends of a string are lost. -/
theorem C81_spaces {repr : ℚ → List Char} {k s : String} {a b : ℕ} (hk : SafeKey k) (hs : Survives s) :
    ∃ t, writeConfig repr [(k, .str (String.ofList (List.replicate a ' ' ++ s.toList ++ List.replicate b ' ')))] = some t ∧
      loadText t = some [(k, .str s)] := by
  obtain ⟨⟨h0, h1, h2, h3, h4⟩, hr⟩ := survives_text hs
  refine ⟨_, rfl, ?_⟩
  have hd : ∀ (n : ℕ) (u : List Char), u.head? ≠ some ' ' → (List.replicate n ' ' ++ u).dropWhile (fun x => decide (x = ' ')) = u := by
    intro n u hu
    induction n with
    | zero =>
      cases u with
      | nil => rfl
      | cons c u =>
        have : c ≠ ' ' := by rintro rfl; exact hu rfl
        simp [List.dropWhile_cons, this]
    | succ n ih => rw [List.replicate_succ, List.cons_append, List.dropWhile_cons, if_pos (by simp), ih]
  have ht : trimSpaces (List.replicate a ' ' ++ s.toList ++ List.replicate b ' ') = s.toList := by
    unfold trimSpaces
    rw [List.append_assoc, hd, List.reverse_append, List.reverse_replicate, hd, List.reverse_reverse]
    · rwa [List.head?_reverse]
    · cases h : s.toList with
      | nil => exact absurd h h0
      | cons c u => rw [h] at h3; exact h3
  rw [loadText_one hk]
  · unfold valueOf
    simp only [String.toList_ofList, ht]
    rw [if_pos (.inr h1), hr]
  · rw [String.toList_ofList]
    intro hm
    simp only [List.mem_append, List.mem_replicate] at hm
    rcases hm with (⟨-, h⟩ | h) | ⟨-, h⟩
    · exact absurd h (by decide)
    · exact h2 _ h rfl
    · exact absurd h (by decide)

/-- C81: a string that reads like another value is written like that value, and no way of reading the file
can tell them apart. -/
theorem C81_strings_lost {repr : ℚ → List Char} {k : String} {v : Val} (hv : Storable repr v) (hs : ∀ s, v ≠ .str s) :
    ∃ s, v ≠ .str s ∧ writeConfig repr [(k, .str s)] = writeConfig repr [(k, v)] ∧
      ∀ load : List Char → Option (Dict Val), ¬ ∀ d t, writeConfig repr d = some t → load t = some d := by
  obtain ⟨t, ht, -, -⟩ := storable_text hv
  have e : writeConfig repr [(k, .str (String.ofList t))] = writeConfig repr [(k, v)] := by
    have e' : textOf repr (.str (String.ofList t)) = some t := by
      simp only [textOf, String.toList_ofList]
    simp only [writeConfig, ht, e']
  refine ⟨String.ofList t, hs _, e, ?_⟩
  intro load h
  have h1 := h [(k, v)] (k.toList ++ [':', ' '] ++ t ++ ['\n'] ++ []) (by simp only [writeConfig, ht])
  have h2 := h [(k, .str (String.ofList t))] (k.toList ++ [':', ' '] ++ t ++ ['\n'] ++ []) (by
    rw [e]; simp only [writeConfig, ht])
  rw [h1] at h2
  simp only [Option.some.injEq, List.cons.injEq, Prod.mk.injEq, true_and, and_true] at h2
  exact hs _ h2

/-- C81: an empty string loads as nothing. -/
theorem C81_empty_string {repr : ℚ → List Char} {k : String} (hk : SafeKey k) :
    ∃ t, writeConfig repr [(k, .str "")] = some t ∧ loadText t = some [(k, .null)] := by
  refine ⟨_, rfl, ?_⟩
  have hc : ':' ∉ k.toList := by
    intro hm
    rcases hk.2.1 _ hm with h | h <;> exact absurd h (by decide)
  have e : k.toList ++ [':', ' '] ++ "".toList ++ ['\n'] ++ [] = (k.toList ++ ':' :: ' ' :: []) ++ '\n' :: [] := by simp
  unfold loadText
  rw [e, linesOf_line]
  · have hv : valueOf [] = some .null := by decide +kernel
    have hl : loadLine (k.toList ++ [':', ' ']) = some (k, .null) := by
      unfold loadLine
      rw [splitKey_safe hc]
      simp only [keyOf_safe hk, hv]
    unfold loadLines
    rw [hl]
    rfl
  · intro c h
    simp only [List.mem_append, List.mem_cons, List.not_mem_nil, or_false] at h
    rcases h with h | rfl | rfl
    · exact (string_writable (key_string hk)).2.2.1 c h
    · decide
    · decide

/-! ### An example -/

/-- The texts of the floats of the example. -/
def exRepr (q : ℚ) : List Char := if q = 1 / 100000 then "1e-05".toList else "2.5".toList

/-- A configuration as the preprocessor makes it. -/
def exCfgD : Dict Val :=
  [("out_dir", .str "./runs/job_000"), ("seed", .int (-3)), ("save_eta_grids", .bool true),
    ("N0_meters", .float (5 / 2)), ("f_bedload", .float (1 / 100000)), ("sea_surface_mean", .null)]

example : writeConfig exRepr exCfgD = some ("out_dir: ./runs/job_000\nseed: -3\nsave_eta_grids: True\n" ++
    "N0_meters: 2.5\nf_bedload: 1e-05\nsea_surface_mean: null\n").toList := by decide +kernel

/-- The example meets the hypotheses. -/
theorem exCfgD_safe : ∀ kv ∈ exCfgD, SafeKey kv.1 ∧ Storable exRepr kv.2 := by
  have h1 : RealText "1e-05".toList (1 / 100000) := by
    have := RealText.exp SignText.none (d := ['1']) (by unfold Digits; decide)
      (ExpText.mk (x := 'e') (.inl rfl) SignText.minus (d := ['0', '5']) (by unfold Digits; decide))
    have e : (((1 : ℤ) : ℚ) * (decimal ['1'] * (10 : ℚ) ^ ((-1 : ℤ) * (decimal ['0', '5'] : ℕ)))) = 1 / 100000 := by
      have : (-1 : ℤ) * (decimal ['0', '5'] : ℕ) = -5 := by decide
      rw [this]
      have : decimal ['1'] = 1 := by decide
      rw [this]
      norm_num
    rw [e] at this
    exact this
  have h2 : RealText "2.5".toList (5 / 2) := by
    have := RealText.point SignText.none (d := ['2']) (f := ['5']) (by unfold Digits; decide) (by decide)
    have e : (((1 : ℤ) : ℚ) * (decimal (['2'] ++ ['5']) / 10 ^ ['5'].length)) = 5 / 2 := by
      have : decimal (['2'] ++ ['5']) = 25 := by decide
      rw [this]
      norm_num
    rw [e] at this
    exact this
  have hk : ∀ k ∈ exCfgD.map (·.1), SafeKey k := by
    have : ∀ k ∈ exCfgD.map (·.1), (k.toList ≠ [] ∧ ∀ c ∈ k.toList.head?, c.isAlpha = true ∨ c = '_') ∧
      (∀ c ∈ k.toList, c.isAlphanum = true ∨ c = '_') ∧ k.toList.length ≤ 1024 ∧ k ∉ reserved := by
      decide +kernel
    intro k hm
    obtain ⟨⟨h0, h1⟩, h2⟩ := this k hm
    refine ⟨?_, h2⟩
    cases ht : k.toList with
    | nil => exact absurd ht h0
    | cons c t => exact ⟨c, t, rfl, h1 c (by rw [ht]; rfl)⟩
  intro kv hm
  refine ⟨hk _ (List.mem_map_of_mem hm), ?_⟩
  simp only [exCfgD, List.mem_cons, List.not_mem_nil, or_false] at hm
  rcases hm with rfl | rfl | rfl | rfl | rfl | rfl
  · refine C81_safe_survives ⟨⟨'.', "/runs/job_000".toList, by decide +kernel, by decide +kernel⟩, by decide +kernel, by decide +kernel,
      by decide +kernel⟩
  · trivial
  · trivial
  · have : exRepr (5 / 2) = "2.5".toList := by decide +kernel
    show RealText (exRepr (5 / 2)) _
    rw [this]; exact h2
  · have : exRepr (1 / 100000) = "1e-05".toList := by decide +kernel
    show RealText (exRepr (1 / 100000)) _
    rw [this]; exact h1
  · trivial

example : ∃ t, writeConfig exRepr exCfgD = some t ∧ loadText ([] ++ t) = some (dupdate [] exCfgD) := by
  obtain ⟨t, h1, h2, -⟩ := C81_config_partial exCfgD_safe (.inl rfl) (old := []) (d0 := []) rfl
  exact ⟨t, h1, h2⟩

/-- Names that begin with a number, an arrow and an expression survive; a date, a time in minutes, a
binary number, an infinity, a key and a comment do not. -/
theorem C81_survivors :
    (∀ s ∈ ["2020-runs", "12.5m", "a:b", "->", "x = 3# y", "?x", "1__0x", "08"], Survives s) ∧
    ∀ s ∈ ["2020-01-01", "2020-1-2 3:04:05.6 +1:30", "10:30", "1:30.5", "0b11", "-.inf", ".5", "1e5", "1_000", "017", "a: b",
      "x #y", "- a", "[1]", "no", "~", "", " a", "a:"], ¬ Survives s := by
  have key : ∀ s : String, Survives s ↔ plainScalar s.toList = true ∧ resolveText s.toList = some (.str s) := by
    intro s
    unfold Survives
    rw [plain_iff, resolve_str]
    simp [String.ofList_toList]
  simp only [key]
  decide +kernel

/-- The string `"2.5"` becomes a number. -/
example : loadText "f_bedload: 2.5\n".toList = some [("f_bedload", .float (5 / 2))] ∧
    writeConfig exRepr [("f_bedload", .str "2.5")] = some "f_bedload: 2.5\n".toList := by decide +kernel

end Verif.Props
