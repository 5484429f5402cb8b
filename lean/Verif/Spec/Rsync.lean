import Verif.Spec.Run

/-!
# Vocabulary for the rsync directory
-/

namespace KSync

variable [Ext]

/-- What the rsync state file says: a state, or there is no such file and nothing is known. -/
def RsyncRecorded (c : Config) (fs : FS) (st : RsyncDirState) : Prop :=
  (∃ b, fs.file? c.rsyncStatePath = some b ∧ Ext.decRsync b = some st) ∨
  (fs.leaf c.rsyncStatePath = none ∧ st = ⟨none, []⟩)

/-- The object that belongs at the relative path `q`: the last one listed. -/
def lastObject (includeHost : Bool) (els : List (RsyncUri × Bytes)) (q : Path) :
    Option (RsyncUri × Bytes) :=
  els.reverse.find? (fun e => decide (comps (objectRel includeHost e.1) = q))

/-- The directory `d` contains exactly the objects `els`: a file for each, and no other file or
link. -/
def TreeIs (f : FS) (d : Path) (includeHost : Bool) (els : List (RsyncUri × Bytes)) : Prop :=
  f.get d = some .dir ∧ ∀ q, (f.leaf (d ++ q) = none ∧ lastObject includeHost els q = none) ∨
    ∃ e t, lastObject includeHost els q = some e ∧ f.leaf (d ++ q) = some (.file e.2 t)

/-- All of the objects `els` are there, perhaps among other files. -/
def HasObjects (f : FS) (d : Path) (includeHost : Bool) (els : List (RsyncUri × Bytes)) : Prop :=
  ∀ q e, lastObject includeHost els q = some e → ∃ t, f.leaf (d ++ q) = some (.file e.2 t)

/-- The time that belongs to an object: start of validity of a certificate, issue time of a CRL,
signing time of everything else, as the file name tells; none if it cannot be decoded. -/
def ownTime (name : Name) (b : Bytes) : Option Time :=
  if ".cer".toList <:+ name then Ext.cerTime b
  else if ".crl".toList <:+ name then Ext.crlTime b
  else Ext.sigTime b

/-- Files below `d` have the times that belong to them. -/
def TimesAre (f : FS) (d : Path) : Prop :=
  ∀ q name b t, f.get (d ++ q ++ [name]) = some (.file b t) → ∀ t', ownTime name b = some t' → t = t'

/-- The directory that clients of the rsync server read: where `current` points to, or `current`
itself. -/
def servedDir (c : Config) (f : FS) : Path :=
  match f.link? c.rsyncCurrent with
  | some t => c.rsyncDir ++ [t]
  | none => c.rsyncCurrent

/-- A revision that has no files on disk, is not served and is not mentioned in the rsync state. -/
structure NewRevision (c : Config) (fs : FS) (rev : RsyncRevision) : Prop where
  notLinked : fs.link? c.rsyncCurrent ≠ some rev.dirName
  noFiles : ∀ q, rev.path c <+: q → fs.leaf q = none
  notCurrent : ∀ st, RsyncRecorded c fs st → st.current ≠ some rev
  notOld : ∀ st, RsyncRecorded c fs st → ∀ d ∈ st.old, d.revision ≠ rev

/-- If `current` is a link then to the directory of a revision. -/
def LinksRevision (c : Config) (fs : FS) : Prop :=
  ∀ t, fs.link? c.rsyncCurrent = some t → ∃ r : RsyncRevision, t = r.dirName

/-- Removal of revision `r` is justified: it was scheduled before the run, or it was the current one
before the run and was scheduled at clock reading number `i`; and at a later clock reading number `k`
at least `--cleanup-after` seconds had gone by since. -/
def RevisionDue (c : Config) (env : Env) (st : RsyncDirState) (r : RsyncRevision) : Prop :=
  ∃ since k, since + c.cleanupAfter ≤ env.clock k ∧
    ((⟨since, r⟩ : DeprecatedRevision) ∈ st.old ∨
      (st.current = some r ∧ ∃ i, i < k ∧ since = env.clock i))

/-- The revision of a notification. -/
def Notif.rev (n : Notif) : RsyncRevision := ⟨n.session, n.serial⟩

/-- The source announces a version that is new compared with what is held. -/
def Announces (c : Config) (base name : Str) (env : Env) (fs : FS) (n : Notif) : Prop :=
  ∃ s, InUse c base name fs s ∧ Offers c env fs s.source.etag n ∧ NewVersion s n

/-- What is staged is what the source announces: the server answers plain requests with content, the
staging area has no links, and a file is announced with one hash only. -/
structure CleanSource (c : Config) (base : Str) (env : Env) (fs : FS) : Prop where
  no304 : No304 env
  noLinks : NoLinks fs c.stagingDir
  oneHash : ∀ etag n, Offers c env fs etag n → OneHashPerPath base n

end KSync
