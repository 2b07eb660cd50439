import Verif.Props.Created
import Verif.Props.Hooks
import Mathlib.Analysis.Real.Sqrt

/-!
# C34, C47, C52: subsidence of a created model, first output, the edge of the domain
-/

set_option linter.unusedSectionVars false

namespace Verif.Props

open Verif.Model Verif.Spec

variable {K : Type*} [Field K] [LinearOrder K] [IsStrictOrderedRing K] [FloorRing K] {σ : Type*}

/-! ## C52: where the edge is -/

lemma sqrt_ge_iff {x y : ℝ} (hx : 0 ≤ x) : y ≤ Real.sqrt x ↔ y ≤ 0 ∨ y * y ≤ x := by
  by_cases hy : y ≤ 0
  · simp [hy, hy.trans (Real.sqrt_nonneg x)]
  · push Not at hy
    rw [Real.le_sqrt' hy, sq]
    constructor
    · exact .inr
    · rintro (h | h)
      · linarith
      · exact h

lemma farCells_iff (L W : ℕ) (CTR : ℤ) (c : Cell L W) :
    farCells L W CTR c = true ↔ min ((L : ℝ) - 5) ((W : ℝ) / 2 - 5) ≤
      Real.sqrt (((c.1.val : ℝ) - 3) ^ 2 + ((c.2.val : ℝ) - CTR) ^ 2) := by
  unfold farCells
  simp only [decide_eq_true_eq]
  rw [sqrt_ge_iff (by positivity)]
  have e : (((min (2 * ((L : ℤ) - 5)) ((W : ℤ) - 10) : ℤ)) : ℝ) =
      2 * min ((L : ℝ) - 5) ((W : ℝ) / 2 - 5) := by
    push_cast
    rw [mul_min_of_nonneg _ _ (by norm_num : (0 : ℝ) ≤ 2)]
    congr 1
    ring
  have h1 : (min (2 * ((L : ℤ) - 5)) ((W : ℤ) - 10) ≤ 0) ↔
      min ((L : ℝ) - 5) ((W : ℝ) / 2 - 5) ≤ 0 := by
    rw [← Int.cast_le (R := ℝ), e, Int.cast_zero]
    constructor <;> intro h <;> linarith
  have h2 : (min (2 * ((L : ℤ) - 5)) ((W : ℤ) - 10) * min (2 * ((L : ℤ) - 5)) ((W : ℤ) - 10) ≤
      4 * (((c.1.val : ℤ) - 3) * ((c.1.val : ℤ) - 3) +
        ((c.2.val : ℤ) - CTR) * ((c.2.val : ℤ) - CTR))) ↔
      min ((L : ℝ) - 5) ((W : ℝ) / 2 - 5) * min ((L : ℝ) - 5) ((W : ℝ) / 2 - 5) ≤
        ((c.1.val : ℝ) - 3) ^ 2 + ((c.2.val : ℝ) - CTR) ^ 2 := by
    rw [← Int.cast_le (R := ℝ), Int.cast_mul, e]
    push_cast
    constructor <;> intro h <;> nlinarith
  rw [h1, h2]

/-- C52: beyond the inlet rows a cell is edge exactly if it is in the last row or a side column, or at
least as far from the middle of the inlet (row 3, the centre column) as the smaller of the length and
half the width, both less 5 cells. -/
theorem C52_edge {O : Oracle K} {I : Input K} {M : Built K} (h : create O I = .ok M) (c : Cell M.L M.W)
    (hc : M.P.L0 ≤ c.1.val) :
    M.P.cellType c = -1 ↔ c.1.val + 1 = M.L ∨ c.2.val = 0 ∨ c.2.val + 1 = M.W ∨
      min ((M.L : ℝ) - 5) ((M.W : ℝ) / 2 - 5) ≤
        Real.sqrt (((c.1.val : ℝ) - 3) ^ 2 + ((c.2.val : ℝ) - M.P.CTR) ^ 2) := by
  obtain ⟨hA, D, hD, hs, e⟩ := create_ok h
  have i1 := (C50_inlet_size hD).1
  subst e
  simp only [initialParams] at c hc ⊢
  rw [← farCells_iff, cellTypes_eq]
  have hl : ¬ landRows _ _ D.L0 c = true := by
    rw [landRows_iff (by omega)]
    omega
  have hch : ¬ channelCells _ _ (centre (cellsAlong I.Width I.dx)) D.L0 D.N0 c = true := by
    unfold channelCells
    rw [Bool.and_eq_true]
    exact fun h => hl h.1
  rw [if_neg hch, if_neg hl]
  split_ifs with h3 <;> simp [h3]

/-! ## C34 for a created model -/

/-- C34: the subsidence per timestep of a created model: nothing in the inlet rows, rate times time step
beyond. -/
theorem C34_sigma {O : Oracle K} {I : Input K} {M : Built K} (h : create O I = .ok M)
    (hs : I.toggleSub = true) (c : Cell M.L M.W) :
    ((c.1.val : ℤ) < M.P.L0 → M.P.sigma c = 0) ∧
    (M.P.L0 ≤ c.1.val → M.P.sigma c = I.subRate * M.P.dt) := by
  obtain ⟨hA, D, hD, hz, e⟩ := create_ok h
  have i1 := (C50_inlet_size hD).1
  subst e
  simp only [initialParams] at c ⊢
  unfold initialSigma
  rw [if_pos hs]
  simp only [assign]
  have := landRows_iff (by omega : 0 ≤ D.L0) c
  constructor
  · intro hl
    rw [if_pos (this.2 hl)]
    ring
  · intro hl
    rw [if_neg (fun h => by have := this.1 h; omega)]
    ring

/-- C34 for a run of a created model: beyond the inlet rows the bed changes by what the sediment routing
does, less rate times time step for every timestep from the first that begins at or after
`start_subsidence`; with subsidence off by the routing alone. -/
theorem C34_created {O : Oracle K} {I : Input K} {L W m : ℕ} [NeZero L] [NeZero W] {P : Params L W m K}
    {S : State L W K} (h : create O I = .ok ⟨L, W, m, P, S⟩) (hdt : 0 < P.dt) (c : Cell L W)
    (hc : P.L0 ≤ c.1.val) {g : Rng K σ} {n : ℕ} {S' : State L W K} {s s' : σ}
    {ls : List (StepLog L W K)} (hr : timesteps g (List.replicate n P) S s = .ok (S', ls, s')) :
    S'.eta c = S.eta c + (ls.map (fun l => l.routed.eta c - l.start.eta c)).sum -
      if I.toggleSub = true then ((n - ⌈I.startSub / P.dt⌉₊ : ℕ) : K) * (I.subRate * P.dt) else 0 := by
  have hin : ¬ InletCell P c := by
    rintro ⟨h0, -⟩
    obtain ⟨hA, D, hD, hz, e⟩ := create_ok h
    have i1 := (C50_inlet_size hD).1
    have e0 : P.L0 = D.L0 := by cases e; rfl
    have : c.1.val = 0 := by rw [h0]
    omega
  have hsig := C34_sigma h
  have hfix : P.toggleSub = I.toggleSub ∧ P.startSub = I.startSub ∧ S.time = 0 := by
    obtain ⟨-, D, -, -, e⟩ := create_ok h
    cases e
    exact ⟨rfl, rfl, rfl⟩
  obtain ⟨f1, f2, f3⟩ := hfix
  rw [C34_run c hin hr, f1, f2, f3, C34_count hdt, sub_zero]
  by_cases ht : I.toggleSub = true
  · rw [if_pos ht, if_pos ht, (hsig ht c).2 hc]
  · rw [if_neg ht, if_neg ht, zero_mul]

/-! ## C47: the first output -/

lemma count_documented (n : ℕ) : (documented n).count .outputData = 1 ∧
    (documented n).count .outputCheckpoint = 1 ∧ (documented n).count .initOutputFile = 0 ∧
    (documented n).count .importFiles = 0 := by
  have hw : ∀ s, s = Step.outputData ∨ s = .outputCheckpoint ∨ s = .initOutputFile ∨ s = .importFiles →
      (((List.range n).map fun i => [Step.initWaterIteration, .runWaterIteration,
        .computeFreeSurface, .finalizeWaterIteration i]).flatten).count s = 0 := by
    intro s hs
    rw [List.count_eq_zero]
    simp only [List.mem_flatten, List.mem_map, not_exists, not_and]
    rintro l ⟨i, -, rfl⟩ hm
    rcases hs with rfl | rfl | rfl | rfl <;> simp at hm
  unfold documented
  simp only [List.count_append, hw _ (.inl rfl), hw _ (.inr (.inl rfl)), hw _ (.inr (.inr (.inl rfl))),
    hw _ (.inr (.inr (.inr rfl)))]
  decide

lemma count_updates (iters : List ℕ) : (entered (iters.flatMap updateEvents)).count .outputData =
    iters.length ∧ (entered (iters.flatMap updateEvents)).count .outputCheckpoint = iters.length ∧
    (entered (iters.flatMap updateEvents)).count .initOutputFile = 0 ∧
    (entered (iters.flatMap updateEvents)).count .importFiles = 0 := by
  induction iters with
  | nil => exact ⟨rfl, rfl, rfl, rfl⟩
  | cons n l ih =>
    obtain ⟨a, b, c, d⟩ := count_documented n
    simp only [List.flatMap_cons, entered_append, List.count_append, C47_order, List.length_cons]
    omega

/-- Specification: the configuration is read once, the output file is made once, and output is looked at
once at the start and once per update. -/
def OutputCalls (l : List Ev) (updates : ℕ) : Prop :=
  (entered l).count .importFiles = 1 ∧ (entered l).count .initOutputFile = 1 ∧
  (entered l).count .outputData = updates + 1 ∧ (entered l).count .outputCheckpoint = updates + 1

/-- C47: a new model, made by the user or by a serial job, makes its output file and first output when it
is made, and one made by a parallel job when the job starts; neither does so twice. -/
theorem C47_output_calls (newFile : Bool) (iters : List ℕ) :
    OutputCalls (lifeEvents false newFile iters) iters.length ∧
    OutputCalls (initEvents false true newFile ++ parallelStartEvents false newFile ++
      iters.flatMap updateEvents) iters.length ∧
    (entered (initEvents false true newFile)).count .outputData = 0 := by
  obtain ⟨a, b, c, d⟩ := count_updates iters
  unfold OutputCalls lifeEvents
  simp only [entered_append, List.count_append, a, b, c, d]
  cases newFile <;>
  · refine ⟨⟨rfl, rfl, ?_, ?_⟩, ⟨rfl, rfl, ?_, ?_⟩, rfl⟩ <;>
    · rw [add_comm]; rfl

-- C52: the default domain; the middle is 100 - 1 = 99, the radius 95
example : min ((100 : ℝ) - 5) ((200 : ℝ) / 2 - 5) = 95 := by norm_num

end Verif.Props
