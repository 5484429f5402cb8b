import Verif.Spec.Basic

/-!
# Vocabulary for whole runs

Conditions on the configuration, on the recorded state and on the source under which the
statements about whole runs are made.
-/

namespace KSync

variable [Ext]

/-! ## Places -/

/-- A relative path that does not leave the directory it is resolved in. -/
structure StaysBelow (rel : Str) : Prop where
  relative : rel.head? ≠ some '/'
  noParent : ['.', '.'] ∉ comps rel

/-- A relative path for a snapshot or delta: it stays below the directory and is neither
at nor below the notification file `name` or the temporary file `name.tmp`. -/
structure GoodRel (name rel : Str) : Prop where
  clean : CleanRel rel
  notName : (comps rel).head? ≠ some name
  notTmp : (comps rel).head? ≠ some (name ++ ".tmp".toList)

/-- Where the notification file is published. -/
def Config.notifPath (c : Config) (name : Str) : Path := c.rrdpDir ++ [name]

/-- Where a file of the source with the given relative path is published. -/
def Config.pubPath (c : Config) (rel : Str) : Path := c.rrdpDir ++ comps rel

/-- The notification URI is `base ++ name`, and the RRDP directory, the rsync directory,
the staging directory and the state files are separate places. -/
structure Layout (c : Config) (base name : Str) : Prop where
  uri : NotifUri c base name
  rrdpStaging : Apart c.rrdpDir c.stagingDir
  rrdpRsync : Apart c.rrdpDir c.rsyncDir
  rsyncStaging : Apart c.rsyncDir c.stagingDir
  rrdpState : Apart c.rrdpDir c.rrdpStatePath
  rrdpRsyncState : Apart c.rrdpDir c.rsyncStatePath
  rsyncState : Apart c.rsyncDir c.rrdpStatePath
  rsyncRsyncState : Apart c.rsyncDir c.rsyncStatePath

/-! ## The recorded state -/

/-- The state belongs to this configuration and mentions only good paths. -/
structure Sane (c : Config) (base name : Str) (s : RrdpState) : Prop where
  source : s.source.uri = c.notificationUri
  fileName : s.source.name = name
  mappings : s.mappings = ⟨base, c.rrdpDir⟩
  snapshot : ∀ x, s.snapshot = some x → GoodRel name x.relPath
  deltas : ∀ d ∈ s.deltas, GoodRel name d.relPath
  deprecated : ∀ d ∈ s.deprecated, ∃ rel, GoodRel name rel ∧ d.path = c.pubPath rel

/-- The state of a first run. -/
def freshState (c : Config) (base name : Str) : RrdpState :=
  ⟨⟨c.notificationUri, name, none⟩, ⟨base, c.rrdpDir⟩, none, [], [], none⟩

/-- The state a run works with: the recorded one, or a fresh one if there is none. -/
def InUse (c : Config) (base name : Str) (fs : FS) (s : RrdpState) : Prop :=
  Recorded c fs s ∨ (fs.exists? c.rrdpStatePath = false ∧ s = freshState c base name)

/-- If a state is recorded, it is sane. -/
def SaneState (c : Config) (base name : Str) (fs : FS) : Prop :=
  ∀ s, Recorded c fs s → Sane c base name s

/-! ## The source -/

/-- Files of the notification that are below the directory of the notification file have
good paths. -/
def GoodNotif (base name : Str) (n : Notif) : Prop :=
  ∀ r ∈ n.refs, ∀ rel, r.1 = base ++ rel → GoodRel name rel

/-- All the source offers is good. -/
def GoodSource (c : Config) (base name : Str) (env : Env) (fs : FS) : Prop :=
  ∀ etag n, Offers c env fs etag n → GoodNotif base name n

/-- Different files of the notification have different paths (or the same content). -/
def OneHashPerPath (base : Str) (n : Notif) : Prop :=
  ∀ r ∈ n.refs, ∀ r' ∈ n.refs, ∀ rel rel', r.1 = base ++ rel → r'.1 = base ++ rel' →
    comps rel = comps rel' → r.2 = r'.2

/-- No symbolic links at or below `d`. -/
def NoLinks (fs : FS) (d : Path) : Prop := ∀ q, d <+: q → fs.link? q = none

/-- The relative path of an object below a revision directory. -/
def objectRel (includeHost : Bool) (u : RsyncUri) : Str :=
  if includeHost then u.authority ++ '/' :: u.module ++ '/' :: u.path else u.path

/-- The snapshot parser hands out only objects whose path stays below the directory. -/
def CleanObjects (includeHost : Bool) : Prop :=
  ∀ b, ∀ e ∈ (Ext.streamSnapshot b).1, StaysBelow (objectRel includeHost e.1)

/-- The conditions under which whole runs are looked at: sensible directories, a file
system that is a tree, a state that belongs to the configuration, no traps in the paths. -/
structure RunConds (c : Config) (base name : Str) (env : Env) (fs : FS) : Prop where
  uri : NotifUri c base name
  wf : fs.WF
  state : SaneState c base name fs
  source : GoodSource c base name env fs
  objects : c.rsyncEnabled = true → CleanObjects c.rsyncIncludeHost

/-! ## What a run made of a notification -/

/-- `n` with its deltas limited and sorted as configured. -/
def Limited (c : Config) (n n' : Notif) : Prop :=
  ∃ ds, IsLimit c.rrdpMaxDeltas n.deltas ds ∧ n' = { n with deltas := ds }

/-- The version held, if any, is of the session of `n`. -/
def SameSession (s : RrdpState) (n : Notif) : Prop :=
  ∀ x, s.snapshot = some x → x.session = n.session

/-- `n` is of another session or has a higher serial than what is held. -/
def NewVersion (s : RrdpState) (n : Notif) : Prop :=
  ∀ x, s.snapshot = some x → x.session ≠ n.session ∨ x.serial < n.serial

/-- A delta of `n` with serial `k` is not held yet. -/
def NewDelta (s : RrdpState) (n : Notif) (k : Nat) : Prop :=
  ¬ SameSession s n ∨ ∀ d ∈ s.deltas, d.serial < k

/-- `k` is not below the lowest serial for which `n` lists a delta. -/
def NotOlder (n : Notif) (k : Nat) : Prop :=
  (∃ d ∈ n.deltas, d.serial ≤ k) ∨ (n.deltas = [] ∧ n.serial ≤ k)

/-- The deltas held, as they are listed in a notification. -/
def RrdpState.held (base : Str) (s : RrdpState) : List DeltaInfo :=
  s.deltas.map (fun d => ⟨d.serial, base ++ d.relPath, d.hash⟩)

/-- From the highest serial down, each once. -/
def Descending (l : List DeltaInfo) : Prop := l.Pairwise (fun a b => b.serial < a.serial)

/-- If a state is recorded, its deltas are listed from the highest serial down. -/
def OrderedState (c : Config) (base : Str) (fs : FS) : Prop :=
  ∀ s, Recorded c fs s → Descending (s.held base)

/-- `n'` announces the same version as `n`. -/
structure SameVersion (n n' : Notif) : Prop where
  session : n'.session = n.session
  serial : n'.serial = n.serial
  snapUri : n'.snapUri = n.snapUri
  snapHash : n'.snapHash = n.snapHash

/-- The notification that should be published, given what is held and what the source
announces: the new deltas and those held deltas that are still listed. -/
structure Update (base : Str) (s : RrdpState) (n n' : Notif) : Prop where
  version : SameVersion n n'
  order : Descending n'.deltas
  deltas : ∀ x, x ∈ n'.deltas ↔ (x ∈ n.deltas ∧ NewDelta s n x.serial) ∨
    (x ∈ s.held base ∧ SameSession s n ∧ NotOlder n x.serial)

/-- `s` describes the published notification `n`. -/
structure Describes (base : Str) (s : RrdpState) (n : Notif) : Prop where
  snapshot : ∃ x, s.snapshot = some x ∧ n.session = x.session ∧ n.serial = x.serial ∧
    n.snapHash = x.hash ∧ n.snapUri = base ++ x.relPath
  deltas : n.deltas = s.held base

/-! ## Removal of replaced files -/

/-- `q` is where the snapshot or a delta that the state describes is published. -/
def RrdpState.Refers (c : Config) (s : RrdpState) (q : Path) : Prop :=
  (∃ x, s.snapshot = some x ∧ q = c.pubPath x.relPath) ∨
  ∃ d ∈ s.deltas, q = c.pubPath d.relPath

/-- Removal of `q` is justified: it was scheduled before the run, or it was in use before
the run and was scheduled at clock reading number `i`; and at a (later) clock reading
number `k` at least `--cleanup-after` seconds had gone by since. -/
def Removable (c : Config) (env : Env) (s : RrdpState) (q : Path) : Prop :=
  ∃ since k, since + c.cleanupAfter ≤ env.clock k ∧
    ((⟨since, q⟩ : DeprecatedFile) ∈ s.deprecated ∨
      (s.Refers c q ∧ ∃ i, i < k ∧ since = env.clock i))

/-- No two readings of the clock are as far apart as the cleanup time. -/
def Brisk (c : Config) (env : Env) : Prop := ∀ i j, env.clock j < env.clock i + c.cleanupAfter

/-! ## State on disk -/

/-- Same data of a repository, but marked as not fetched. -/
def RepoData.SameUnfetched (d d' : RepoData) : Prop :=
  d'.fetched = false ∧ { d' with fetched := d.fetched } = d

/-- The same state, but with all validator data marked as not fetched. -/
structure RrdpState.SameUnfetched (s s' : RrdpState) : Prop where
  source : s'.source = s.source
  mappings : s'.mappings = s.mappings
  snapshot : s'.snapshot = s.snapshot
  deltas : s'.deltas = s.deltas
  deprecated : s'.deprecated = s.deprecated
  noValidator : s.validator = none → s'.validator = none
  validator : ∀ v, s.validator = some v → ∃ v', s'.validator = some v' ∧
    v'.tals = v.tals ∧ v'.repos.fetchers = v.repos.fetchers ∧
    v'.repos.data.length = v.repos.data.length ∧
    ∀ (i : Nat) (e e' : Str × RepoData), v.repos.data[i]? = some e → v'.repos.data[i]? = some e' →
      e'.1 = e.1 ∧ e.2.SameUnfetched e'.2

end KSync
