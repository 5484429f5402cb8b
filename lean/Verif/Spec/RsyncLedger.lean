import Verif.Spec.RsyncHistory

/-!
# What is known about the files in the rsync directory

Used to state C65.
-/

namespace KSync

variable [Ext]

/-- The rsync state has the revision as the current one or as an old one. -/
def RsyncDirState.Mentions (st : RsyncDirState) (r : RsyncRevision) : Prop :=
  st.current = some r ∨ ∃ d ∈ st.old, d.revision = r

/-- If the rsync state can be read: every file or link in the rsync directory is in `current`, or in the
directory of a revision that the state mentions, or one of `A`. -/
def RsyncAccounted (c : Config) (A : Path → Prop) (f : FS) : Prop :=
  ∀ st, RsyncRecorded c f st → ∀ q, c.rsyncDir <+: q → f.leaf q ≠ none →
    c.rsyncCurrent <+: q ∨ (∃ r : RsyncRevision, st.Mentions r ∧ r.path c <+: q) ∨ A q

/-- Histories in which we note down (in the first index) what may have been left behind in the rsync
directory by runs that were cut off. -/
inductive RsyncLedger (c : Config) (base name : Str) : (Path → Prop) → FS → Prop
  | start {f : FS} : Unused c name f → RsyncUnused c f → RsyncLedger c base name (fun _ => False) f
  /-- a run that ends well, whether there was something to do or not -/
  | done {A : Path → Prop} {depth : Nat} {env : Env} {f : FS} {w : World} :
      RsyncLedger c base name A f → SoundSource c base name env f →
      process depth c env (World.start f) = (.ok (), w) → RsyncLedger c base name A w.cur
  /-- a run that fails, or is cut off, before it changes the rsync directory or the rsync state -/
  | idle {A : Path → Prop} {depth : Nat} {env : Env} {f f' : FS} :
      RsyncLedger c base name A f → SoundSource c base name env f →
      f' ∈ (process depth c env (World.start f)).2.crashPoints →
      (∀ q, c.rsyncDir <+: q ∨ q = c.rsyncStatePath → f'.leaf q = f.leaf q) →
      RsyncLedger c base name A f'
  /-- a run that fails or is cut off anywhere -/
  | cut {A : Path → Prop} {depth : Nat} {env : Env} {f f' : FS} :
      RsyncLedger c base name A f → SoundSource c base name env f →
      f' ∈ (process depth c env (World.start f)).2.crashPoints →
      RsyncLedger c base name (fun q => A q ∨ q = c.rsyncDir ++ ["current.tmp".toList] ∨
        ∃ n, Announces c base name env f n ∧ n.rev.path c <+: q) f'

end KSync
