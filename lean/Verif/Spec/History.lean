import Verif.Spec.Run

/-!
# Vocabulary for histories

A history is a sequence of runs, each of which may end anywhere: normally, with an error, or by
a crash at any of its instants.
-/

namespace KSync

variable [Ext]

/-- What can be on disk after some number of runs, starting from a file system as in `start`.  Each
run satisfies `ok`; `ι` keeps track of what may change from run to run. -/
inductive History {ι : Type} (c : Config) (start : ι → FS → Prop)
    (ok : ι → ι → Nat → Env → FS → Prop) : ι → FS → Prop
  | start {i : ι} {f : FS} : start i f → History c start ok i f
  | run {i j : ι} {depth : Nat} {env : Env} {f f' : FS} : History c start ok i f →
      ok i j depth env f → f' ∈ (process depth c env (World.start f)).2.crashPoints →
      History c start ok j f'

/-! ## The life of a source -/

/-- What a file of the source is: the snapshot of a version or the delta that leads to it. -/
structure FileRole where
  snapshot : Bool
  session : Uuid
  serial : Nat
  hash : Hash
deriving DecidableEq

/-- The files of a source over its whole life, by the path below the directory of the notification
file: a path is used for one thing only.  Sessions have an order. -/
structure SourceLife where
  role : Path → FileRole
  age : Uuid → Nat
  distinct : ∀ a b, age a = age b → a = b

/-- The notification uses every path for what it is meant for. -/
structure SourceLife.Lists (life : SourceLife) (base : Str) (n : Notif) : Prop where
  snapshot : ∀ rel, n.snapUri = base ++ rel →
    life.role (comps rel) = ⟨true, n.session, n.serial, n.snapHash⟩
  deltas : ∀ d ∈ n.deltas, ∀ rel, d.uri = base ++ rel →
    life.role (comps rel) = ⟨false, n.session, d.serial, d.hash⟩

/-- How far the source has got: its session, its serial, and the lowest serial for which it still
announces a delta. -/
structure Progress where
  age : Nat
  serial : Nat
  low : Nat

/-- Time goes on. -/
def Progress.le (p p' : Progress) : Prop :=
  p.age < p'.age ∨ (p.age = p'.age ∧ p.serial ≤ p'.serial ∧ p.low ≤ p'.low)

/-- `n` is not older than `p`: neither its version nor the deltas it announces. -/
def SourceLife.NotBefore (life : SourceLife) (p : Progress) (n : Notif) : Prop :=
  p.age < life.age n.session ∨ (p.age = life.age n.session ∧ p.serial ≤ n.serial ∧
    ∀ d ∈ n.deltas, p.low ≤ d.serial)

/-- `n` is not newer than `p`. -/
def SourceLife.NotAfter (life : SourceLife) (p : Progress) (n : Notif) : Prop :=
  life.age n.session < p.age ∨ (life.age n.session = p.age ∧ n.serial ≤ p.serial ∧
    ∀ k, ¬ NotOlder n k → k < p.low)

/-! ## Histories over a source that behaves -/

/-- The state on disk describes the published notification, if there is one. -/
def InStep (c : Config) (base name : Str) (fs : FS) : Prop :=
  fs.leaf (c.notifPath name) = none ∨ ∃ s n t, Recorded c fs s ∧ Describes base s n ∧
    fs.leaf (c.notifPath name) = some (.file (Ext.writeNotif n) t)

/-- Before the first run: no state, no notification, no links in the staging area. -/
structure Pristine (c : Config) (name : Str) (fs : FS) : Prop where
  wf : fs.WF
  noState : fs.get c.rrdpStatePath = none
  noNotification : fs.leaf (c.notifPath name) = none
  noLinks : NoLinks fs c.stagingDir

/-- A run during which the source goes on from `p` to `p'`, is sensible and does not answer 'not
modified' to an unconditional request; which is not limited to 0 deltas, unless there are none so far;
which takes less than the cleanup time; and in which files can be renamed from the staging area to the RRDP
directory, or which starts with notification and state in step. -/
structure GoodRun (life : SourceLife) (c : Config) (base name : Str) (p p' : Progress) (depth : Nat)
    (env : Env) (fs : FS) : Prop where
  source : GoodSource c base name env fs
  later : p.le p'
  lists : ∀ etag n, Offers c env fs etag n → life.Lists base n
  notBefore : ∀ etag n, Offers c env fs etag n → life.NotBefore p n
  notAfter : ∀ etag n, Offers c env fs etag n → life.NotAfter p' n
  no304 : No304 env
  limit : c.rrdpMaxDeltas = some 0 → ∀ s, Recorded c fs s → s.deltas = []
  brisk : Brisk c env
  moves : (process depth c env (World.start fs)).2.copied = [] ∨ InStep c base name fs

/-- What can be on disk in the life of an installation. -/
def Lifetime (life : SourceLife) (c : Config) (base name : Str) : Progress → FS → Prop :=
  History c (fun _ => Pristine c name) (GoodRun life c base name)

/-! ## Sequences of deltas -/

/-- From `top` down without gaps. -/
def Unbroken (l : List DeltaInfo) (top : Nat) : Prop :=
  ∀ i (h : i < l.length), (l[i]'h).serial + i = top

/-- The deltas listed, if any, go up to the serial of the notification. -/
def ReachesSerial (n : Notif) : Prop :=
  (∀ d ∈ n.deltas, d.serial ≤ n.serial) ∧ (n.deltas ≠ [] → ∃ d ∈ n.deltas, d.serial = n.serial)

/-- The serials of the deltas have 64 bits, as all serials do. -/
def Serials64 (n : Notif) : Prop :=
  ∀ d ∈ n.deltas, d.serial < 2 ^ 64

/-- Histories over a source whose files have sensible names. -/
def Updates (c : Config) (base name : Str) : FS → Prop :=
  History (ι := Unit) c (fun _ => Pristine c name)
    (fun _ _ _ env fs => GoodSource c base name env fs) ()

/-- ... and which lists deltas up to its serial. -/
def OrderlyUpdates (c : Config) (base name : Str) : FS → Prop :=
  History (ι := Unit) c (fun _ => Pristine c name)
    (fun _ _ _ env fs => GoodSource c base name env fs ∧
      ∀ etag n, Offers c env fs etag n → ReachesSerial n) ()

/-! ## Versions that move forward -/

/-- How far the source has got: age of its session, and serial. -/
def Version : Type := Nat × Nat

def Version.le (p p' : Version) : Prop := p.1 < p'.1 ∨ (p.1 = p'.1 ∧ p.2 ≤ p'.2)

/-- The version announced, where sessions have an order. -/
def Notif.version (age : Uuid → Nat) (n : Notif) : Version := (age n.session, n.serial)

/-- A run during which the source goes on from `p` to `p'`. -/
structure ForwardRun (age : Uuid → Nat) (c : Config) (base name : Str) (p p' : Version)
    (depth : Nat) (env : Env) (fs : FS) : Prop where
  source : GoodSource c base name env fs
  later : p.le p'
  notBefore : ∀ etag n, Offers c env fs etag n → p.le (n.version age)
  notAfter : ∀ etag n, Offers c env fs etag n → (n.version age).le p'

end KSync
