import Verif.Spec.Forget
import Verif.Spec.Restart

/-!
# Vocabulary for changing the options from run to run

Used to state C80.
-/

namespace KSync

variable [Ext]

/-- The configurations are of the same installation: the notification file is the same, and so are the
three directories.  Everything else may differ. -/
structure SameInstallation (c c' : Config) : Prop where
  uri : c'.notificationUri = c.notificationUri
  stateDir : c'.stateDir = c.stateDir
  rrdpDir : c'.rrdpDir = c.rrdpDir
  rsyncDir : c'.rsyncDir = c.rsyncDir

/-- What can be on disk after some number of runs, each with a configuration of its own, but all for the
installation of `c`.  In between state files may get lost, and anything
may happen elsewhere on the disk. -/
inductive Reconfigured {ι : Type} (c : Config) (start : ι → FS → Prop)
    (ok : Config → ι → ι → Nat → Env → FS → Prop) : ι → FS → Prop
  | start {i : ι} {f : FS} : start i f → Reconfigured c start ok i f
  | run {c' : Config} {i j : ι} {depth : Nat} {env : Env} {f f' : FS} : Reconfigured c start ok i f →
      SameInstallation c c' → ok c' i j depth env f →
      f' ∈ (process depth c' env (World.start f)).2.crashPoints → Reconfigured c start ok j f'
  | meanwhile {i : ι} {f f' : FS} : Reconfigured c start ok i f → BetweenRuns c f f' →
      Reconfigured c start ok i f'

/-- Both write to the rsync directory and use links, and include the host in paths or not. -/
structure SameRsync (c c' : Config) : Prop where
  enabled : c'.rsyncEnabled = true
  links : c'.rsyncUseSymlinks = true
  host : c'.rsyncIncludeHost = c.rsyncIncludeHost

end KSync
