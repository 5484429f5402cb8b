import Verif.Spec.History
import Verif.Spec.Rsync

/-!
# Vocabulary for starting again after a crash
-/

namespace KSync

variable [Ext]

/-- Nothing that is a file is also needed as a directory. -/
def PrefixFree (S : Path → Prop) : Prop := ∀ p q, S p → S q → p <+: q → p = q

/-- The names used by a source over its whole life: its files, below the directory of the notification
file; and the objects in its versions, below the directory of a revision. -/
structure SourceTree where
  files : Path → Prop
  objects : RsyncRevision → Path → Prop

/-- All of it, together with the notification file `name` and its temporary version, can be on one
file system. -/
structure SourceTree.Tidy (T : SourceTree) (name : Str) : Prop where
  files : PrefixFree (fun p => T.files p ∨ p = [name] ∨ p = [name ++ ".tmp".toList])
  objects : ∀ r, PrefixFree (T.objects r)
  named : ∀ r, ¬ T.objects r []

/-- The notification and its snapshot keep to the names in `T`, and all of them are names of files. -/
structure SourceTree.Has (T : SourceTree) (c : Config) (base : Str) (n : Notif) : Prop where
  files : ∀ r ∈ n.refs, ∀ rel, r.1 = base ++ rel → T.files (comps rel)
  objects : ∀ b, Ext.sha b = n.snapHash → ∀ e ∈ (Ext.streamSnapshot b).1,
    T.objects n.rev (comps (objectRel c.rsyncIncludeHost e.1))
  names : ∀ r ∈ n.refs, EndsInName r.1
  objectNames : ∀ b, Ext.sha b = n.snapHash → ∀ e ∈ (Ext.streamSnapshot b).1, EndsInName e.1.path

/-- The places that krill-sync works in. -/
def Config.places (c : Config) : List Path :=
  [c.rrdpStatePath, c.rsyncStatePath, c.stagingDir, c.rrdpDir, c.rsyncDir]

/-- Before the first run: there is nothing in the places that krill-sync works in, and they can be
created. -/
structure Untouched (c : Config) (fs : FS) : Prop where
  wf : fs.WF
  empty : ∀ p ∈ c.places, ∀ q, p <+: q → fs.get q = none
  above : ∀ p ∈ c.places, ∀ q, q <+: p → q ≠ p → fs.get q = none ∨ fs.get q = some .dir

/-- A run as in `GoodRun`, in which the source keeps to the names in `T`. -/
structure TidyRun (life : SourceLife) (T : SourceTree) (c : Config) (base name : Str)
    (p p' : Progress) (depth : Nat) (env : Env) (fs : FS) : Prop where
  good : GoodRun life c base name p p' depth env fs
  has : ∀ etag n, Offers c env fs etag n → T.Has c base n

/-- What can be on disk in the life of an installation, over a source that keeps to the names in `T`. -/
def TidyLifetime (life : SourceLife) (T : SourceTree) (c : Config) (base name : Str) :
    Progress → FS → Prop :=
  History c (fun _ => Untouched c) (TidyRun life T c base name)

/-- The state files are whole: neither was being written when the last run was cut off. -/
structure StatesWhole (c : Config) (fs : FS) : Prop where
  rrdp : fs.exists? c.rrdpStatePath = false ∨ ∃ s, Recorded c fs s
  rsync : ∃ st, RsyncRecorded c fs st

/-- A place that has content with hash `h`, whatever happens in the staging area. -/
def FetchSource.Serves (src : FetchSource) (c : Config) (env : Env) (fs : FS) (P : Bytes → Prop) :
    Prop :=
  ∀ fs', (∀ q, ¬ c.stagingDir <+: q → fs'.leaf q = fs.leaf q) → src.Answers env fs' none P

/-- The source offers `n`, whenever it is asked, and everything that belongs to it. -/
structure Supplies (c : Config) (base : Str) (env : Env) (fs : FS) (n : Notif) : Prop where
  notification : ∃ src, c.Locates c.notificationUri src ∧
    src.Serves c env fs (fun b => Ext.parseNotif b = some n)
  files : ∀ r ∈ n.refs, (∃ rel, r.1 = base ++ rel) ∧ ∃ src, c.Locates r.1 src ∧
    src.Serves c env fs (fun b => Ext.sha b = r.2)
  deltas : Gapless n.deltas
  whole : ∀ b, Ext.sha b = n.snapHash → (Ext.streamSnapshot b).2 = true

/-- Children are removed before their parents. -/
def ChildrenFirst (env : Env) : Prop :=
  ∀ n p q, p <+: q → p ≠ q → env.prio n p < env.prio n q

/-- Pre-validation and scripts let the update pass. -/
def Passes (depth : Nat) (c : Config) (env : Env) (fs : FS) : Prop :=
  ∀ s0 w1 st w2, loadState c env (World.start fs) = (.ok s0, w1) →
    s0.updateStaged c env w1 = (.ok (some st), w2) →
    ∃ s w3 w4, s0.preValidate depth c env w2 = (.ok s, w3) ∧ scriptGate c env w3 = (.ok (), w4)

/-- The published notification is of the version of `n`, and all that it refers to is there. -/
def PublishedAs (c : Config) (base name : Str) (fs : FS) (n : Notif) : Prop :=
  ∃ n' t, fs.get (c.notifPath name) = some (.file (Ext.writeNotif n') t) ∧
    n'.session = n.session ∧ n'.serial = n.serial ∧
    ∀ r ∈ n'.refs, ∃ rel, r.1 = base ++ rel ∧ FileHas fs (c.pubPath rel) r.2

/-- There is something in `current`, or it is a link to the revision recorded in the rsync state `st` on
disk, and it cannot be moved away: `st` names no current revision, or there is something where it would be
moved to. -/
structure Stuck (c : Config) (st : RsyncDirState) (fs : FS) : Prop where
  recorded : RsyncRecorded c fs st
  current : (∃ q, q ≠ [] ∧ fs.leaf (c.rsyncCurrent ++ q) ≠ none) ∨
    ∃ old, st.current = some old ∧ fs.link? c.rsyncCurrent = some old.dirName
  away : ∀ old, st.current = some old → ∃ q, q ≠ [] ∧ fs.leaf (old.path c ++ q) ≠ none

/-- A run over a sensible source that does not offer the revision named in `st`. -/
def OtherRevisions (c : Config) (base name : Str) (st : RsyncDirState) (env : Env) (fs : FS) : Prop :=
  GoodSource c base name env fs ∧ ∀ etag n, Offers c env fs etag n → st.current ≠ some n.rev

end KSync
