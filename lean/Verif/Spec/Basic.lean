import Verif.Model.Process

/-!
# Vocabulary of the specifications

What an observer of the published directories, of the network and of the configuration can
say, without reference to how krill-sync works.
-/

namespace KSync

/-! ## Files as seen by their readers -/

/-- What a program sees when it opens and reads `p`. -/
def FS.read (fs : FS) (p : Path) : Option Bytes :=
  match fs.resolve p with
  | some (.file b _) => some b
  | _ => none

/-- What is at `p` unless it is a directory: a file or a symbolic link, with everything
stored about it. -/
def FS.leaf (fs : FS) (p : Path) : Option Node :=
  match fs.get p with
  | some .dir => none
  | n => n

/-- A tree: everything has a parent directory. -/
def FS.WF (fs : FS) : Prop := ∀ p n, fs.get (p ++ [n]) ≠ none → fs.get p = some .dir

/-- All files and links outside `S` are the same. -/
def Frame (S : Path → Prop) (f f' : FS) : Prop := ∀ p, ¬ S p → f'.leaf p = f.leaf p

variable [Ext]

/-- There is a regular file at `p` and its SHA-256 is `h`. -/
def FileHas (fs : FS) (p : Path) (h : Hash) : Prop := ∃ b, fs.file? p = some b ∧ Ext.sha b = h

/-! ## The network -/

/-- The server never answers 'not modified' to a request without `If-None-Match`. -/
def No304 (env : Env) : Prop := ∀ tick r, r.etag = none → env.http tick r ≠ .notModified

/-- A place holds the bytes `b` (with entity tag `e`): it is a URI and the server answers
so at some time, or it is a file with that content. -/
def FetchSource.Body (src : FetchSource) (env : Env) (fs : FS) (etag : Option Str)
    (b : Bytes) (e : Option Str) : Prop :=
  match src with
  | .uri u m => ∃ tick hdr, env.http tick ⟨u, m, etag⟩ = .ok hdr (some b) ∧
      ((hdr = .absent ∧ e = none) ∨ ∃ s, hdr = .valid s ∧ e = some s)
  | .file p => fs.read p = some b ∧ e = none

/-- Where the configuration says that the content of a URI is to be found: at the URI
itself, or at the same place relative to the source base as the URI has relative to the
directory of the notification file. -/
inductive Config.Locates (c : Config) (uri : Str) : FetchSource → Prop
  | direct : c.fetchMap = none → Config.Locates c uri (.uri uri c.insecure)
  | mappedUri (base u : Str) (m : Bool) (rel : Str) : c.fetchMap = some ⟨base, .uri u m⟩ →
      uri = base ++ rel → Config.Locates c uri (.uri (httpsJoin u rel) m)
  | mappedDir (base : Str) (p : Path) (rel : Str) : c.fetchMap = some ⟨base, .file p⟩ →
      uri = base ++ rel → Config.Locates c uri (.file (joinPath p rel))

/-- The same for the repositories looked at in a validation. -/
inductive Fetcher.Locates (f : Fetcher) (uri : Str) : FetchSource → Prop
  | direct : f.fetchMap = none → Fetcher.Locates f uri (.uri uri f.insecure)
  | mappedUri (base u : Str) (m : Bool) (rel : Str) : f.fetchMap = some ⟨base, .uri u m⟩ →
      uri = base ++ rel → Fetcher.Locates f uri (.uri (httpsJoin u rel) m)
  | mappedDir (base : Str) (p : Path) (rel : Str) : f.fetchMap = some ⟨base, .file p⟩ →
      uri = base ++ rel → Fetcher.Locates f uri (.file (joinPath p rel))

/-- The source offers the notification `n`. -/
def Offers (c : Config) (env : Env) (fs : FS) (etag : Option Str) (n : Notif) : Prop :=
  ∃ src b e, c.Locates c.notificationUri src ∧ src.Body env fs etag b e ∧
    Ext.parseNotif b = some n

/-- A place reliably answers a plain read with bytes satisfying `P`. -/
def FetchSource.Answers (src : FetchSource) (env : Env) (fs : FS) (etag : Option Str)
    (P : Bytes → Prop) : Prop :=
  match src with
  | .uri u m => ∀ tick, ∃ hdr b, env.http tick ⟨u, m, etag⟩ = .ok hdr (some b) ∧
      hdr ≠ .invalid ∧ P b
  | .file p => ∃ b, fs.read p = some b ∧ P b

/-- No system call fails. -/
def NoFaults (env : Env) : Prop := ∀ tick, env.fault tick = false

/-- The state recorded on disk is `s`. -/
def Recorded (c : Config) (fs : FS) (s : RrdpState) : Prop :=
  ∃ b, fs.read c.rrdpStatePath = some b ∧ Ext.decState b = some s

/-! ## The configuration -/

/-- The notification URI is the directory `base` followed by the file name `name`. -/
structure NotifUri (c : Config) (base name : Str) : Prop where
  eq : c.notificationUri = base ++ name
  slash : base.getLast? = some '/'
  long : schemeLen < base.length
  nonempty : name ≠ []
  plain : '/' ∉ name
  notDot : name ≠ ['.']
  notDotDot : name ≠ ['.', '.']

/-- The text ends in a name, so that it can be that of a file: not in `/`, `/.` or `/..`. -/
def EndsInName (s : Str) : Prop :=
  ∃ d n, s = d ++ n ∧ (d = [] ∨ d.getLast? = some '/') ∧ n ≠ [] ∧ '/' ∉ n ∧ n ≠ ['.'] ∧ n ≠ ['.', '.']

/-- Neither directory contains the other. -/
def Apart (p q : Path) : Prop := ¬ p <+: q ∧ ¬ q <+: p

/-- A relative path that stays below the directory it is resolved in. -/
structure CleanRel (rel : Str) : Prop where
  relative : rel.head? ≠ some '/'
  noParent : ['.', '.'] ∉ comps rel
  nonempty : comps rel ≠ []

/-! ## Notifications -/

/-- The files a notification refers to. -/
def Notif.refs (n : Notif) : List (Str × Hash) :=
  (n.snapUri, n.snapHash) :: n.deltas.map (fun d => (d.uri, d.hash))

/-- `ds'` is what `--rrdp-max-deltas max` leaves of the deltas `ds`: the most recent ones,
in ascending order.  (With a maximum of 0 the library used does one of two things.) -/
structure IsLimit (max : Option Nat) (ds ds' : List DeltaInfo) : Prop where
  /-- what is left out is older than what is kept -/
  split : ∃ older, (older ++ ds').Perm ds ∧ ∀ o ∈ older, ∀ d ∈ ds', o.serial ≤ d.serial
  /-- consecutive serials -/
  contig : ∀ i (h : i + 1 < ds'.length),
    (ds'[i + 1]'h).serial = (ds'[i]'(Nat.lt_of_succ_lt h)).serial + 1
  /-- as many as allowed -/
  length : match max with
    | none => ds'.length = ds.length
    | some 0 => ds'.length = ds.length ∨ ds' = []
    | some m => ds'.length = min m ds.length

/-- The deltas, in some order, have consecutive serials. -/
def Gapless (ds : List DeltaInfo) : Prop :=
  ∃ l : List DeltaInfo, l.Perm ds ∧ ∀ i (h : i + 1 < l.length),
    (l[i + 1]'h).serial = (l[i]'(Nat.lt_of_succ_lt h)).serial + 1

end KSync
