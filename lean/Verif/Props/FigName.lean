import Verif.Props.Output

/-!
# C41: names of figure files
-/

set_option linter.unusedSectionVars false
set_option linter.unusedSimpArgs false

namespace Verif.Props

open Verif.Model Verif.Lemmas Verif.Spec

/-- The value of a decimal digit. -/
def digitVal (c : Char) : ℕ := c.toNat - 48

/-- The number a string of decimal digits stands for. -/
def decVal : List Char → ℕ
  | [] => 0
  | c :: cs => digitVal c * 10 ^ cs.length + decVal cs

lemma digitVal_digitChar : ∀ d : Fin 10, digitVal (Nat.digitChar d) = d := by decide +kernel

lemma isDigit_digitChar : ∀ d : Fin 10, (Nat.digitChar d).isDigit = true := by decide +kernel

lemma decVal_append (a b : List Char) : decVal (a ++ b) = decVal a * 10 ^ b.length + decVal b := by
  induction a with
  | nil => simp [decVal]
  | cons c cs ih =>
    simp only [List.cons_append, decVal, ih, List.length_append, pow_add]
    ring

lemma decVal_zeros (k : ℕ) : decVal (List.replicate k '0') = 0 := by
  induction k with
  | zero => rfl
  | succ k ih => simp [List.replicate_succ, decVal, ih, digitVal]

lemma decVal_digits : ∀ ds : List ℕ, (∀ d ∈ ds, d < 10) →
    decVal (ds.reverse.map Nat.digitChar) = Nat.ofDigits 10 ds := by
  intro ds
  induction ds with
  | nil => intro _; rfl
  | cons d ds ih =>
    intro h
    rw [List.reverse_cons, List.map_append, decVal_append, ih (fun x hx => h x (by simp [hx])),
      Nat.ofDigits_cons]
    have := digitVal_digitChar ⟨d, h d (by simp)⟩
    simp only at this
    simp only [List.map_cons, List.map_nil, decVal, this, List.length_singleton, List.length_nil,
      pow_one, pow_zero, Nat.cast_id]
    ring

lemma strNat_val (n : ℕ) : decVal (strNat n) = n := by
  unfold strNat
  split_ifs with h
  · subst h; rfl
  · rw [decVal_digits _ (fun d hd => Nat.digits_lt_base (by norm_num) hd), Nat.ofDigits_digits]

lemma strNat_digits (n : ℕ) : ∀ c ∈ strNat n, c.isDigit = true := by
  intro c hc
  unfold strNat at hc
  split_ifs at hc with h
  · simp only [List.mem_singleton] at hc
    subst hc; rfl
  · simp only [List.mem_map, List.mem_reverse] at hc
    obtain ⟨d, hd, rfl⟩ := hc
    exact isDigit_digitChar ⟨d, Nat.digits_lt_base (by norm_num) hd⟩

lemma zfill5_val (n : ℕ) : decVal (zfill5 (strNat n)) = n := by
  unfold zfill5
  rw [decVal_append, decVal_zeros, strNat_val]
  simp

lemma zfill5_digits (n : ℕ) : ∀ c ∈ zfill5 (strNat n), c.isDigit = true := by
  intro c hc
  unfold zfill5 at hc
  rcases List.mem_append.1 hc with h | h
  · rw [List.eq_of_mem_replicate h]; rfl
  · exact strNat_digits n c h

/-- Split at the last separator. -/
lemma append_sep_inj {α : Type*} {c : α} {a b x y : List α} (hx : c ∉ x) (hy : c ∉ y)
    (h : a ++ c :: x = b ++ c :: y) : a = b ∧ x = y := by
  rcases List.append_eq_append_iff.1 h with ⟨t, h1, h2⟩ | ⟨t, h1, h2⟩
  · cases t with
    | nil =>
      simp only [List.nil_append, List.cons.injEq, true_and] at h2
      exact ⟨by simpa using h1.symm, h2⟩
    | cons d t =>
      simp only [List.cons_append, List.cons.injEq] at h2
      exact absurd (by rw [h2.2]; simp) hx
  · cases t with
    | nil =>
      simp only [List.nil_append, List.cons.injEq, true_and] at h2
      exact ⟨by simpa using h1, h2.symm⟩
    | cons d t =>
      simp only [List.cons_append, List.cons.injEq] at h2
      exact absurd (by rw [h2.2]; simp) hy

/-- C41: with sequential figures different variables or different saves have different files, for all
variable names and all indices. -/
theorem C41_injective {f f' : List Char} {i i' : ℕ} (h : figName true f i = figName true f' i') :
    f = f' ∧ i = i' := by
  simp only [figName, if_true] at h
  have h1 := List.append_cancel_right h
  simp only [List.append_assoc, List.singleton_append] at h1
  have hn : ∀ n, '_' ∉ zfill5 (strNat n) := fun n hm => by
    have := zfill5_digits n _ hm
    exact absurd this (by decide)
  obtain ⟨h2, h3⟩ := append_sep_inj (hn i) (hn i') h1
  refine ⟨h2, ?_⟩
  rw [← zfill5_val i, ← zfill5_val i', h3]

/-! ### Order of the names -/

lemma decVal_lt {cs : List Char} (h : ∀ c ∈ cs, c.isDigit = true) : decVal cs < 10 ^ cs.length := by
  induction cs with
  | nil => simp [decVal]
  | cons c cs ih =>
    have h1 := ih (fun x hx => h x (by simp [hx]))
    have h2 := h c (by simp)
    have h3 : digitVal c ≤ 9 := by
      simp only [Char.isDigit, ge_iff_le, Bool.and_eq_true, decide_eq_true_eq] at h2
      have : c.toNat ≤ 57 := h2.2
      unfold digitVal
      omega
    simp only [decVal, List.length_cons, pow_succ]
    nlinarith [Nat.mul_le_mul_right (10 ^ cs.length) h3]

lemma digit_lt {c d : Char} (hc : c.isDigit = true) (hd : d.isDigit = true)
    (h : digitVal c < digitVal d) : c < d := by
  simp only [Char.isDigit, ge_iff_le, Bool.and_eq_true, decide_eq_true_eq] at hc hd
  have h1 : 48 ≤ c.toNat := hc.1
  have h2 : 48 ≤ d.toNat := hd.1
  unfold digitVal at h
  have : c.toNat < d.toNat := by omega
  exact this

lemma digit_eq {c d : Char} (hc : c.isDigit = true) (hd : d.isDigit = true)
    (h : digitVal c = digitVal d) : c = d := by
  simp only [Char.isDigit, ge_iff_le, Bool.and_eq_true, decide_eq_true_eq] at hc hd
  have h1 : 48 ≤ c.toNat := hc.1
  have h2 : 48 ≤ d.toNat := hd.1
  unfold digitVal at h
  have : c.toNat = d.toNat := by omega
  exact Char.toNat_inj.1 this

/-- Digit strings of the same length are sorted by value, whatever follows. -/
lemma digits_sorted : ∀ {xs ys : List Char} (s : List Char), xs.length = ys.length →
    (∀ c ∈ xs, c.isDigit = true) → (∀ c ∈ ys, c.isDigit = true) → decVal xs < decVal ys →
    xs ++ s < ys ++ s := by
  intro xs
  induction xs with
  | nil =>
    intro ys s hl _ _ hv
    have : ys = [] := List.length_eq_zero_iff.1 hl.symm
    subst this
    simp at hv
  | cons x xs ih =>
    intro ys s hl hx hy hv
    cases ys with
    | nil => simp at hl
    | cons y ys =>
      simp only [List.length_cons, Nat.add_right_cancel_iff] at hl
      have hx1 := hx x (by simp)
      have hy1 := hy y (by simp)
      have hx2 : ∀ c ∈ xs, c.isDigit = true := fun c hc => hx c (by simp [hc])
      have hy2 : ∀ c ∈ ys, c.isDigit = true := fun c hc => hy c (by simp [hc])
      simp only [List.cons_append]
      rw [List.cons_lt_cons_iff]
      rcases lt_trichotomy (digitVal x) (digitVal y) with h | h | h
      · exact Or.inl (digit_lt hx1 hy1 h)
      · right
        refine ⟨digit_eq hx1 hy1 h, ih s hl hx2 hy2 ?_⟩
        simp only [decVal, h, hl] at hv
        omega
      · exfalso
        have h1 := decVal_lt hy2
        simp only [decVal, hl] at hv
        have : (digitVal y + 1) * 10 ^ ys.length ≤ digitVal x * 10 ^ ys.length :=
          Nat.mul_le_mul_right _ h
        rw [add_mul, one_mul] at this
        omega

lemma append_lt_append_left {p a b : List Char} (h : a < b) : p ++ a < p ++ b := by
  induction p with
  | nil => exact h
  | cons c p ih => rw [List.cons_append, List.cons_append, List.cons_lt_cons_iff]; exact Or.inr ⟨rfl, ih⟩

lemma strNat_length {n : ℕ} (h : n < 100000) : (strNat n).length ≤ 5 := by
  unfold strNat
  split_ifs with h0
  · simp
  · simp only [List.length_map, List.length_reverse]
    exact (Nat.digits_length_le_iff (by norm_num) n).2 (by omega)

lemma zfill5_length {n : ℕ} (h : n < 100000) : (zfill5 (strNat n)).length = 5 := by
  have := strNat_length h
  unfold zfill5
  simp only [List.length_append, List.length_replicate]
  omega

/-- C41: below 100000 the names of a variable sort in the order of the saves. -/
theorem C41_sorted (f : List Char) {i j : ℕ} (hij : i < j) (hj : j < 100000) :
    figName true f i < figName true f j := by
  simp only [figName, if_true, List.append_assoc]
  apply append_lt_append_left
  apply append_lt_append_left
  refine digits_sorted _ ?_ (zfill5_digits i) (zfill5_digits j) ?_
  · rw [zfill5_length (by omega), zfill5_length hj]
  · rw [zfill5_val, zfill5_val]; exact hij

/-- The limit is sharp: save 100000 sorts before save 99999. -/
theorem C41_sorted_limit : figName true "eta".toList 100000 < figName true "eta".toList 99999 := by
  decide +kernel

/-! ### Contents of the files -/

variable {K : Type*} [Field K] [LinearOrder K] [IsStrictOrderedRing K] [FloorRing K] {σ : Type*}
variable {L W m : ℕ} [NeZero L] [NeZero W]

lemma saveFigs_get (sq : Bool) (i : ℕ) (r : Record L W K) (x : List Char) :
    ∀ (fs : List (List Char)) (files : List Char → Option (Record L W K)),
    saveFigs sq i r fs files x = if ∃ f ∈ fs, x = figName sq f i then some r else files x := by
  intro fs
  induction fs with
  | nil => intro files; simp [saveFigs]
  | cons f fs ih =>
    intro files
    simp only [saveFigs, ih]
    by_cases h1 : ∃ g ∈ fs, x = figName sq g i
    · rw [if_pos h1, if_pos]
      obtain ⟨g, hg, e⟩ := h1
      exact ⟨g, by simp [hg], e⟩
    · rw [if_neg h1]
      by_cases h2 : x = figName sq f i
      · rw [if_pos ⟨f, by simp, h2⟩, h2, Function.update_self]
      · rw [Function.update_of_ne h2, if_neg]
        rintro ⟨g, hg, e⟩
        rcases List.mem_cons.1 hg with rfl | hg
        · exact h2 e
        · exact h1 ⟨g, hg, e⟩

lemma fold_saveFigs (fs : List (List Char)) (f : List Char) (hf : f ∈ fs) (i : ℕ)
    (files : List Char → Option (Record L W K)) : ∀ (ws : List (ℕ × Record L W K)),
    (ws.foldl (fun files w => saveFigs true w.1 w.2 fs files) files) (figName true f i) =
      match (ws.filter (fun w => w.1 = i)).getLast? with
      | some w => some w.2
      | none => files (figName true f i) := by
  intro ws
  induction ws using List.reverseRecOn with
  | nil => rfl
  | append_singleton ws w ih =>
    rw [List.foldl_append, List.filter_append]
    simp only [List.foldl_cons, List.foldl_nil]
    rw [saveFigs_get]
    by_cases h : w.1 = i
    · rw [if_pos ⟨f, hf, by rw [h]⟩]
      simp [h]
    · rw [if_neg, ih]
      · simp [h]
      · rintro ⟨g, hg, e⟩
        exact h (C41_injective e).2.symm

/-- C41: after any run with sequential figures, every save of every chosen variable is still in its
own file. -/
theorem C41_files {g : Rng K σ} {cfg : OutCfg K} {Ps : List (Params L W m K)} {S : State L W K}
    {s : σ} {M : Sim L W K σ} (h : updates g cfg Ps (startSim cfg S s) = .ok M)
    (hs : cfg.sequential = true) {f : List Char} (hf : f ∈ cfg.figs) (i : ℕ)
    (hi : i < M.saves.length) : M.figFiles (figName true f i) = some M.saves[i].2 := by
  obtain ⟨is, js, hinv⟩ := outInv h
  have hidx := (C40_records h).1
  rw [hinv.figs, hs, fold_saveFigs cfg.figs f hf]
  have : M.saves.filter (fun w => w.1 = i) = [M.saves[i]] := by
    have hsplit : M.saves = M.saves.take i ++ M.saves[i] :: M.saves.drop (i + 1) := by
      rw [List.cons_getElem_drop_succ, List.take_append_drop]
    rw [congrArg (List.filter (fun w => decide (w.1 = i))) hsplit, List.filter_append,
      List.filter_cons_of_pos (by simp [hidx i hi])]
    have h1 : (M.saves.take i).filter (fun w => w.1 = i) = [] := by
      rw [List.filter_eq_nil_iff]
      intro w hw
      obtain ⟨j, hj, rfl⟩ := List.getElem_of_mem hw
      simp only [List.length_take] at hj
      rw [List.getElem_take, hidx j (by omega)]
      simp; omega
    have h2 : (M.saves.drop (i + 1)).filter (fun w => w.1 = i) = [] := by
      rw [List.filter_eq_nil_iff]
      intro w hw
      obtain ⟨j, hj, rfl⟩ := List.getElem_of_mem hw
      simp only [List.length_drop] at hj
      rw [List.getElem_drop, hidx (i + 1 + j) (by omega)]
      simp; omega
    rw [h1, h2]
    simp
  rw [this]
  rfl

/-- Without sequential figures the one file of a variable holds the last save. -/
theorem C41_latest {g : Rng K σ} {cfg : OutCfg K} {Ps : List (Params L W m K)} {S : State L W K}
    {s : σ} {M : Sim L W K σ} (h : updates g cfg Ps (startSim cfg S s) = .ok M)
    (hs : cfg.sequential = false) {f : List Char} (hf : f ∈ cfg.figs) (i : ℕ) :
    M.figFiles (figName false f i) = M.saves.getLast?.map Prod.snd := by
  obtain ⟨is, js, hinv⟩ := outInv h
  rw [hinv.figs, hs]
  have hne : M.saves ≠ [] := by
    intro he
    have := hinv.snaps.length_eq
    rw [he, List.length_nil] at this
    exact hinv.sched.ne_nil (List.length_eq_zero_iff.1 this)
  rw [← List.dropLast_append_getLast hne, List.foldl_append]
  simp only [List.foldl_cons, List.foldl_nil]
  rw [saveFigs_get, if_pos ⟨f, hf, rfl⟩]
  simp

/-! ## C46: updates are accepted; non-trivial cases -/

/-- C46: on a well laid-out domain every update of a model that is not finalized is accepted. -/
theorem C46_accepted {g : Rng K σ} (hg : PositiveDraws g) (cfg : OutCfg K) :
    ∀ {Ps : List (Params L W m K)}, (∀ P ∈ Ps, WaterSetup P ∧ SedDomain P ∧ 0 ≤ P.h0) →
    ∀ {M : Sim L W K σ}, M.finalized = false → (∀ c, 0 ≤ M.S.depth c) → 0 < M.S.ncols →
    ∃ M', updates g cfg Ps M = .ok M' := by
  intro Ps
  induction Ps with
  | nil => intro _ M _ _ _; exact ⟨M, rfl⟩
  | cons P Ps ih =>
    intro hPs M hf hd hn
    obtain ⟨hW, hD, h0⟩ := hPs P List.mem_cons_self
    obtain ⟨S1, l, s1, h1, h2⟩ := C71_update hg hW hD hd hn M.rng
    have hu : update g cfg P M = .ok (afterStep cfg P.dt M S1 s1) := by
      unfold update
      simp only [hf, Bool.false_eq_true, if_false, h1]
    have hS : (afterStep cfg P.dt M S1 s1).S = S1 := by
      unfold afterStep
      rw [(outputCheckpoint_frame cfg _).1, (outputData_frame cfg _).1]
    obtain ⟨M', h3⟩ := ih (fun Q hQ => hPs Q (List.mem_cons_of_mem _ hQ))
      (M := afterStep cfg P.dt M S1 s1) (update_life hf hu)
      (fun c => by rw [hS]; exact (C36_update h0 h1 c).2.1) (by rw [hS]; exact h2)
    exact ⟨M', by simp only [updates, hu, h3]⟩

/-- Saves every five halves, checkpoints every three units of time, with two figures. -/
def exOut : OutCfg ℚ := ⟨5 / 2, 3, true, true, ["eta".toList, "depth".toList], true⟩

/-- Ten updates of the example run through, so the theorems above apply to it. -/
theorem exUpdates : ∃ M, updates constRng exOut (List.replicate 10 exParams)
    (startSim exOut exState ()) = .ok M :=
  C46_accepted exPositive exOut (by
    intro P hP
    rw [List.eq_of_mem_replicate hP]
    exact ⟨exSetup, exSedDomain, by norm_num [exParams]⟩)
    rfl (fun c => by norm_num [exState, startSim, outputCheckpoint, outputData, due, newSim, exOut,
      saveGridsAndFigs]) (by norm_num [exState, startSim, outputCheckpoint, outputData, due, newSim,
      exOut, saveGridsAndFigs])

-- C39: with save_dt = 5/2 and dt = 1 the ten updates give the saves 0, 3, 6, 9
example : (10 / max 1 ⌈(5 / 2 : ℚ) / 1⌉₊ + 1, max 1 ⌈(5 / 2 : ℚ) / 1⌉₊) = (4, 3) := by decide +kernel

-- C41
example : figName true "eta".toList 42 = "eta_00042.png".toList := by decide +kernel
example : figName false "eta".toList 42 = "eta_latest.png".toList := by decide +kernel
example : figName true "eta".toList 123456 = "eta_123456.png".toList := by decide +kernel

end Verif.Props
