import Verif.Spec.RsyncHistory
import Verif.Spec.Fallback

/-!
# Vocabulary for installations that share a disk and lose their state

Used to state C79.
-/

namespace KSync

variable [Ext]

/-- The places of an installation: the RRDP and the rsync directory, the staging area, the state files. -/
def Config.roots (c : Config) : List Path :=
  [c.rrdpDir, c.rsyncDir, c.stagingDir, c.rrdpStatePath, c.rsyncStatePath]

/-- The path belongs to the installation. -/
def Config.Owns (c : Config) (q : Path) : Prop := ∃ r ∈ c.roots, r <+: q

/-- What can happen to the disk between two runs.  Someone removes state files, and what they like in the
staging area, but nothing else of the installation.  Elsewhere anything may change; but on the way to the
places of the installation there are directories, as far as there is anything. -/
structure BetweenRuns (c : Config) (f f' : FS) : Prop where
  wf : f'.WF
  changed : ∀ q, f'.get q = f.get q ∨
    (f'.get q = none ∧ (q = c.rrdpStatePath ∨ q = c.rsyncStatePath ∨ c.stagingDir <+: q)) ∨
    (¬ c.Owns q ∧ ∀ r ∈ c.roots, q <+: r → f'.get q = none ∨ f'.get q = some .dir)

/-- What can be on disk if in addition to the runs of a `History` there are such changes, in between
and as often as someone likes. -/
inductive Managed {ι : Type} (c : Config) (start : ι → FS → Prop)
    (ok : ι → ι → Nat → Env → FS → Prop) : ι → FS → Prop
  | start {i : ι} {f : FS} : start i f → Managed c start ok i f
  | run {i j : ι} {depth : Nat} {env : Env} {f f' : FS} : Managed c start ok i f → ok i j depth env f →
      f' ∈ (process depth c env (World.start f)).2.crashPoints → Managed c start ok j f'
  | meanwhile {i : ι} {f f' : FS} : Managed c start ok i f → BetweenRuns c f f' →
      Managed c start ok i f'

end KSync
