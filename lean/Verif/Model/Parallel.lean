import Verif.Model.Jobs

/-!
# Parallel jobs

Model of the parallel part of `run_jobs` and of `_ParallelJob`
(`pyDeltaRCM/preprocessor.py` 564-637 and 839-928).

A process is forked when a job is started: it has its own copy of the model and of the generator, so
what a job does is a function of the state in which it was started (`runParallelJob`). How the
processes interleave is a transition system (`ProcStep`): the parent takes the semaphore, makes and starts
a job, and so on; then it joins all processes; then it reads the queue. A process puts its reports into
the queue, releases the semaphore, and ends when all it has put is in the pipe. The queue of
`multiprocessing` has a buffer in each process and a thread that writes into one pipe; the pipe holds a
limited amount of data, taken as a number of reports here.
-/

namespace Verif.Model

variable {K : Type*} [Field K] [LinearOrder K] {In M G : Type*}

/-! ## What one job does -/

/-- The deferred output and the loop of updates (pyDeltaRCM/preprocessor.py 880-900). -/
def beginLoop (E : Engine K In M G) (stop : K) (fuel : ℕ) (mo : M) (s : G) : Option (Looped M G) :=
  match E.begin mo s with
  | (some e, mo1, s1) => some ⟨some e, mo1, s1, 0⟩
  | (none, mo1, s1) => runLoop E stop fuel mo1 s1

/-- `_ParallelJob.run` (pyDeltaRCM/preprocessor.py 869-928) without the semaphore; the reports are the
ones put into the queue. -/
def runParallelJob (E : Engine K In M G) (fuel : ℕ) (j : Job K M) (s : G) : Option (Ran M G) :=
  match beginLoop E j.stop fuel j.model s with
  | none => none
  | some r =>
    match r.raised with
    | none => some (finishJob E j.i r.model r.rng [⟨j.i, 0, 0⟩, ⟨j.i, 1, 0⟩] r.updates)
    | some e =>
      if e.caught then some (finishJob E j.i r.model r.rng [⟨j.i, 0, 0⟩, ⟨j.i, 1, 1⟩] r.updates)
      else some ⟨some e, r.model, r.rng, [⟨j.i, 0, 0⟩], r.updates⟩

/-- The class with `defer_output=True` (pyDeltaRCM/preprocessor.py 861-863). -/
def Engine.deferred (E : Engine K In M G) : Engine K In M G := { E with make := E.defer }

/-- What the jobs do, with the state of the generator that the processes start with: the parent makes
the jobs one after the other (pyDeltaRCM/preprocessor.py 599-621). The list ends with a job that cannot
be made. -/
def forkJobs (E : Engine K In M G) (parse : String → Option ℚ) (fuel : ℕ) :
    ℕ → List (In × Dict Yaml) → G → List (Except Exc (Option (Ran M G)))
  | _, [], _ => []
  | i, (inp, cfg) :: js, s =>
    match makeJob E.deferred parse i inp cfg s with
    | (.error e, _) => [.error e]
    | (.ok j, s1) => .ok (runParallelJob E fuel j s1) :: forkJobs E parse fuel (i + 1) js s1

/-! ## Processes -/

/-- What a process still has to do before it ends. -/
inductive ProcAct
  | put (r : Report)
  | release

/-- Where the parent is. -/
inductive Phase
  /-- before `s.acquire()` for this job -/
  | acquire (i : ℕ)
  /-- about to make and start this job -/
  | make (i : ℕ)
  /-- at `i.join()` of this job -/
  | join (i : ℕ)
  /-- reading the queue -/
  | drain
  | done
  /-- this job could not be made, `run_jobs` raised -/
  | raised (i : ℕ)
deriving DecidableEq

/-- A process. -/
structure Child where
  /-- how often the job was started -/
  starts : ℕ
  acts : List ProcAct
  /-- put into the queue, but not in the pipe yet -/
  buf : List Report
  exited : Bool

/-- All processes. -/
structure World (n : ℕ) where
  phase : Phase
  sema : ℕ
  child : Fin n → Child
  pipe : List Report
  /-- what the parent has read -/
  got : List Report

/-- Before the loop in `run_jobs` with so many permits. -/
def World.init (n limit : ℕ) : World n :=
  ⟨.acquire 0, limit, fun _ => ⟨0, [], [], false⟩, [], []⟩

/-- One step of a process. `fate i` is what job `i` puts into the queue before it releases the
semaphore, `none` if it cannot be made; `cap` is how much the pipe holds. -/
inductive ProcStep {n : ℕ} (fate : Fin n → Option (List Report)) (cap : ℕ) : World n → World n → Prop
  /-- `s.acquire()` (pyDeltaRCM/preprocessor.py 600) -/
  | acquire {w : World n} (i : ℕ) (hp : w.phase = .acquire i) (hs : 0 < w.sema) :
    ProcStep fate cap w { w with phase := .make i, sema := w.sema - 1 }
  /-- make and start the job (pyDeltaRCM/preprocessor.py 602-621); after the last one the jobs are
  joined -/
  | start {w : World n} (i : Fin n) (hp : w.phase = .make i) (rs : List Report) (hf : fate i = some rs) :
    ProcStep fate cap w { w with
      phase := if (i : ℕ) + 1 < n then .acquire (i + 1) else .join 0
      child := Function.update w.child i
        ⟨(w.child i).starts + 1, rs.map .put ++ [.release], [], false⟩ }
  /-- the job cannot be made -/
  | raise {w : World n} (i : Fin n) (hp : w.phase = .make i) (hf : fate i = none) :
    ProcStep fate cap w { w with phase := .raised i }
  /-- `self.queue.put(...)` (pyDeltaRCM/preprocessor.py 875-924) -/
  | put {w : World n} (i : Fin n) (r : Report) (as : List ProcAct) (ha : (w.child i).acts = .put r :: as) :
    ProcStep fate cap w { w with
      child := Function.update w.child i { w.child i with acts := as, buf := (w.child i).buf ++ [r] } }
  /-- `self.sema.release()` (pyDeltaRCM/preprocessor.py 928) -/
  | release {w : World n} (i : Fin n) (as : List ProcAct) (ha : (w.child i).acts = .release :: as) :
    ProcStep fate cap w { w with
      sema := w.sema + 1
      child := Function.update w.child i { w.child i with acts := as } }
  /-- the thread of the queue writes into the pipe, if there is room -/
  | feed {w : World n} (i : Fin n) (r : Report) (b : List Report) (hb : (w.child i).buf = r :: b)
      (hc : w.pipe.length < cap) :
    ProcStep fate cap w { w with
      child := Function.update w.child i { w.child i with buf := b }, pipe := w.pipe ++ [r] }
  /-- a process ends only after the thread of the queue has written everything -/
  | exit {w : World n} (i : Fin n) (hs : 0 < (w.child i).starts) (ha : (w.child i).acts = [])
      (hb : (w.child i).buf = []) (he : (w.child i).exited = false) :
    ProcStep fate cap w { w with child := Function.update w.child i { w.child i with exited := true } }
  /-- `i.join()` (pyDeltaRCM/preprocessor.py 624-625) -/
  | join {w : World n} (i : Fin n) (hp : w.phase = .join i) (he : (w.child i).exited = true) :
    ProcStep fate cap w { w with phase := if (i : ℕ) + 1 < n then .join (i + 1) else .drain }
  /-- `q.get()` (pyDeltaRCM/preprocessor.py 629-637) -/
  | take {w : World n} (r : Report) (p : List Report) (hp : w.phase = .drain) (hq : w.pipe = r :: p) :
    ProcStep fate cap w { w with pipe := p, got := w.got ++ [r] }
  /-- the queue is empty -/
  | finish {w : World n} (hp : w.phase = .drain) (hq : w.pipe = []) :
    ProcStep fate cap w { w with phase := .done }

/-- The states that can be reached in so many steps. -/
inductive ProcSteps {n : ℕ} (fate : Fin n → Option (List Report)) (cap : ℕ) : ℕ → World n → World n → Prop
  | refl (w : World n) : ProcSteps fate cap 0 w w
  | tail {k : ℕ} {w v u : World n} (h : ProcSteps fate cap k w v) (h' : ProcStep fate cap v u) :
    ProcSteps fate cap (k + 1) w u

end Verif.Model
