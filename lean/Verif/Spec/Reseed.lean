import Verif.Model.Campaign
import Verif.Model.Parallel

/-!
# Jobs with other seeds
-/

namespace Verif.Spec

open Verif.Model

variable {K : Type*} [Field K] [LinearOrder K] {σ M M' G : Type*}

/-- The folder with another seed. -/
def reseed (x : σ) (f : Folder K σ) : Folder K σ := ⟨{ f.toSetting with seeded := x }, f.resume, f.files⟩

/-- The model in the folder with another seed, all else the same. -/
def reseedModel (x : σ) (mo : FolderModel K σ) : FolderModel K σ := ⟨reseed x mo.at_, mo.sim⟩

/-- The folder resumes from a checkpoint that can be loaded. -/
def CanResume (f : Folder K σ) : Prop :=
  f.resume = true ∧ ∃ ck x, f.files.ckpt = some ck ∧ ck.saveSince = some x

/-- What a job ended with, with another model and another number of the job in its reports. -/
def relabel (ψ : M → M') (n : ℕ → ℕ) (r : Ran M G) : Ran M' G :=
  ⟨r.raised, ψ r.model, r.rng, r.reports.map fun p => ⟨n p.job, p.stage, p.code⟩, r.updates⟩

/-- What serial jobs ended with, with other models. -/
def relabelDone (ψ : M → M') (d : Done M G) : Done M' G := ⟨d.jobs.map (relabel ψ id), d.raised, d.rng⟩

end Verif.Spec
