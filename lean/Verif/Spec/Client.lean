import Verif.Spec.RsyncHistory

/-! # Vocabulary for clients of the published repository -/

namespace KSync

variable [Ext]

/-- What can be on disk, by whatever runs of an installation, completed, failed or interrupted, that
start from `f0` and read the clock only at `t0` or later, and less than the cleanup time later.  Files
can be renamed from the staging area to the RRDP directory, unless state and notification were in step at
first. -/
def Meanwhile (life : SourceLife) (c : Config) (base name : Str) (t0 : Time) (p0 : Progress) (f0 : FS) :
    Progress → FS → Prop :=
  History c (fun p f => p = p0 ∧ f = f0) (fun p p' depth env f =>
    GoodRun life c base name p p' depth env f ∧
    ((process depth c env (World.start f)).2.copied = [] ∨ InStep c base name f0) ∧
    ∀ i, t0 ≤ env.clock i ∧ env.clock i < t0 + c.cleanupAfter)

/-- The same, as far as the rsync directory is concerned: files may be copied. -/
def MeanwhileRsync (life : SourceLife) (c : Config) (base name : Str) (t0 : Time) (p0 : Progress)
    (f0 : FS) : Progress → FS → Prop :=
  History c (fun p f => p = p0 ∧ f = f0) (fun p p' depth env f =>
    GoodRun life c base name p p' depth env f ∧
    ∀ i, t0 ≤ env.clock i ∧ env.clock i < t0 + c.cleanupAfter)

end KSync
