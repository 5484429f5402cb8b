import Verif.Spec.Restart
import Verif.Spec.Ledger

/-!
# Vocabulary for the rsync directory over many runs
-/

namespace KSync

variable [Ext]

/-- Which version a revision is, where sessions have an order. -/
def RsyncRevision.version (age : Uuid → Nat) (r : RsyncRevision) : Version := (age r.session, r.serial)

/-- A run as in `GoodRun` that starts in time: if the rsync state has the current revision among the
old ones too, then it has not been there for the cleanup time yet. -/
structure TimelyRun (life : SourceLife) (c : Config) (base name : Str) (p p' : Progress) (depth : Nat)
    (env : Env) (fs : FS) : Prop where
  good : GoodRun life c base name p p' depth env fs
  timely : ∀ st r, RsyncRecorded c fs st → st.current = some r → ∀ d ∈ st.old, d.revision = r →
    ∀ k, env.clock k < d.since + c.cleanupAfter

/-- What can be on disk in the life of an installation whose runs are in time. -/
def TimelyLifetime (life : SourceLife) (c : Config) (base name : Str) : Progress → FS → Prop :=
  History c (fun _ => Untouched c) (TimelyRun life c base name)

/-- `b` is a complete snapshot of revision `r`. -/
def IsSnapshotOf (life : SourceLife) (r : RsyncRevision) (b : Bytes) : Prop :=
  (∃ q, life.role q = ⟨true, r.session, r.serial, Ext.sha b⟩) ∧ (Ext.streamSnapshot b).2 = true

/-- There is a file for each of the objects `els`. -/
def FilesThere (f : FS) (d : Path) (includeHost : Bool) (els : List (RsyncUri × Bytes)) : Prop :=
  ∀ e ∈ els, (f.file? (d ++ comps (objectRel includeHost e.1))).isSome

/-- The RRDP state and `current` are of the same version. -/
def InAccord (c : Config) (f : FS) (r : RsyncRevision) : Prop :=
  (∃ s x, Recorded c f s ∧ s.snapshot = some x ∧ x.session = r.session ∧ x.serial = r.serial) ∧
  f.link? c.rsyncCurrent = some r.dirName

/-- There is nothing in the directory `d` but the objects `els`. -/
def OnlyObjects (f : FS) (d : Path) (includeHost : Bool) (els : List (RsyncUri × Bytes)) : Prop :=
  ∀ q, f.leaf (d ++ q) ≠ none → ∃ e, lastObject includeHost els q = some e

/-- The source has one snapshot for each version, and there is but one file with its hash. -/
def OneSnapshot (life : SourceLife) : Prop :=
  ∀ q q' s k b b', life.role q = ⟨true, s, k, Ext.sha b⟩ → life.role q' = ⟨true, s, k, Ext.sha b'⟩ → b = b'

/-- What can be on disk in the life of an installation that starts with nothing. -/
def NewLifetime (life : SourceLife) (c : Config) (base name : Str) : Progress → FS → Prop :=
  History c (fun _ => Untouched c) (GoodRun life c base name)

/-- All of the objects `els` that have a time of their own are there, with that time. -/
def OwnTimes (f : FS) (d : Path) (includeHost : Bool) (els : List (RsyncUri × Bytes)) : Prop :=
  ∀ q nm e t, lastObject includeHost els (q ++ [nm]) = some e → ownTime nm e.2 = some t →
    f.leaf (d ++ q ++ [nm]) = some (.file e.2 t)

/-- What can be on disk in the life of an installation on which no system call fails. Runs are in time,
and may fail for other reasons or be cut off. -/
def FaultlessLifetime (life : SourceLife) (c : Config) (base name : Str) : Progress → FS → Prop :=
  History c (fun _ => Untouched c)
    (fun p p' depth env f => TimelyRun life c base name p p' depth env f ∧ NoFaults env)

/-! ## With moves instead of links -/

/-- There is nothing in the rsync directory, and no rsync state. -/
def RsyncUnused (c : Config) (f : FS) : Prop :=
  ∀ q, c.rsyncDir <+: q ∨ q = c.rsyncStatePath → f.leaf q = none

/-- Installations that start with nothing, with any number of runs (complete, failed or cut off) over a
source that names its files sensibly.  `B` contains the versions the source has announced to them. -/
def AnyLifetime (c : Config) (base name : Str) : (Notif → Prop) → FS → Prop :=
  History c (fun _ f => Unused c name f ∧ RsyncUnused c f)
    (fun B B' _ env f => SoundSource c base name env f ∧
      ∀ n, B n ∨ Announces c base name env f n → B' n)

/-- `b` is the complete snapshot of `n`, and all its objects are in the directory `d`. -/
def Serves (c : Config) (f : FS) (d : Path) (n : Notif) (b : Bytes) : Prop :=
  Ext.sha b = n.snapHash ∧ (Ext.streamSnapshot b).2 = true ∧
    HasObjects f d c.rsyncIncludeHost (Ext.streamSnapshot b).1

end KSync
