import Verif.Model.Rrdp

/-! # src/rsync.rs -/

namespace KSync

variable [Ext]

/-- One hexadecimal digit, lower case. -/
def hexDigit (n : Nat) : Char :=
  if n < 10 then Char.ofNat (48 + n) else Char.ofNat (87 + n)

/-- The 32 hexadecimal digits of a UUID, most significant first. -/
def Uuid.hex (u : Uuid) : Str :=
  (List.range 32).map (fun i => hexDigit (u.toNat / 16 ^ (31 - i) % 16))

/-- `Uuid`'s `Display` (hyphenated, 8-4-4-4-12). -/
def Uuid.toStr (u : Uuid) : Str :=
  let h := u.hex
  h.take 8 ++ '-' :: (h.drop 8).take 4 ++ '-' :: (h.drop 12).take 4 ++
    '-' :: (h.drop 16).take 4 ++ '-' :: h.drop 20

/-- `RsyncRevision::dir_name` (src/rsync.rs:239-241). -/
def RsyncRevision.dirName (r : RsyncRevision) : Name :=
  "session_".toList ++ Uuid.toStr r.session ++ "_serial_".toList ++ Nat.toDigits 10 r.serial

/-- `RsyncRevision::path` (src/rsync.rs:243-245). -/
def RsyncRevision.path (r : RsyncRevision) (c : Config) : Path := c.rsyncDir ++ [r.dirName]

/-! ## Writing the objects of a snapshot -/

/-- Where an object goes (src/rsync.rs:305-314). -/
def objectPath (out : Path) (includeHost : Bool) (u : RsyncUri) : Path :=
  if includeHost then joinPath out (u.authority ++ '/' :: u.module ++ '/' :: u.path)
  else joinPath out u.path

/-- Does a path end with the given text (`path_str.ends_with`, src/rsync.rs:343-345)? -/
def pathEndsWith (p : Path) (suffix : Str) : Bool :=
  match p.getLast? with
  | some n => suffix.reverse.isPrefixOf n.reverse
  | none => false

/-- The modification time an object should get (src/rsync.rs:343-356). -/
def objectTime (p : Path) (b : Bytes) : Option Time :=
  if pathEndsWith p ".cer".toList then Ext.cerTime b
  else if pathEndsWith p ".crl".toList then Ext.crlTime b
  else Ext.sigTime b

/-- `fix_since` (src/rsync.rs:340-370): failures are only logged. -/
def fixSince (p : Path) (b : Bytes) : M Unit :=
  match objectTime p b with
  | none => pure ()
  | some t => do
    let _ ← M.attempt (setMtime p t)
    pure ()

/-- `publish` (src/rsync.rs:300-334).  No file can be created for a URI that ends in a slash. -/
def publishObject (out : Path) (includeHost : Bool) (e : RsyncUri × Bytes) : M Unit :=
  let p := objectPath out includeHost e.1
  if endsInName e.1.path then do
    writeBuf p e.2
    fixSince p e.2
  else do
    createPathForFile p
    M.throw .io

/-- `create_out_path_if_missing` (src/rsync.rs:270-281). -/
def createOutPath (out : Path) : M Unit := do
  let fs ← getFs
  if fs.exists? out then pure () else createDirAll out

/-- `for_snapshot_path` (src/rsync.rs:285-290): elements are written as they are parsed. -/
def writeSnapshotTree (out : Path) (includeHost : Bool) (snapshot : Path) : M Unit := do
  let b ← readFile snapshot
  let (els, complete) := Ext.streamSnapshot b
  M.forEach els (publishObject out includeHost)
  if complete then pure () else M.throw .parse

/-! ## Switching `current` -/

/-- `symlink_current_to_new_revision_dir` (src/rsync.rs:65-102). -/
def symlinkCurrent (r : RsyncRevision) (c : Config) : M Unit := do
  let current := c.rsyncCurrent
  let tmp := pathWithExtension current "tmp".toList
  let fs ← getFs
  (if fs.exists? tmp then removeFile tmp else pure ())
  symlink r.dirName tmp
  rename tmp current

/-- `rename_new_revision_dir_to_current` (src/rsync.rs:107-147). -/
def renameCurrent (r : RsyncRevision) (s : RsyncDirState) (c : Config) : M Unit := do
  let current := c.rsyncCurrent
  let fs ← getFs
  (match s.current with
   | some old => if fs.exists? current then rename current (old.path c) else pure ()
   | none => pure ())
  rename (r.path c) current

/-! ## State -/

/-- `RsyncDirState::recover` (src/rsync.rs:158-176). -/
def RsyncDirState.recover (c : Config) : M RsyncDirState := do
  let fs ← getFs
  if fs.exists? c.rsyncStatePath then do
    let b ← readFile c.rsyncStatePath
    M.orThrow .parse (Ext.decRsync b)
  else pure ⟨none, []⟩

/-- `RsyncDirState::persist` (src/rsync.rs:179-183). -/
def RsyncDirState.persist (s : RsyncDirState) (c : Config) : M Unit :=
  writeBuf c.rsyncStatePath (Ext.encRsync s)

/-- `update_current` (src/rsync.rs:187-192). -/
def RsyncDirState.updateCurrent (s : RsyncDirState) (r : RsyncRevision) : M RsyncDirState :=
  match s.current with
  | none => pure { s with current := some r }
  | some old => do
    let t ← now
    pure ⟨some r, s.old ++ [⟨t, old⟩]⟩

/-- Removal of one old revision (src/rsync.rs:206-220). -/
def cleanRevision (c : Config) (d : DeprecatedRevision) : M Unit := do
  let fs ← getFs
  if fs.exists? (d.revision.path c) then removeDirAll (d.revision.path c) else pure ()

/-- `clean_old` (src/rsync.rs:198-227). -/
def RsyncDirState.cleanOld (s : RsyncDirState) (c : Config) : M RsyncDirState := do
  let before ← secondsAgo c.cleanupAfter
  M.forEach (s.old.filter (fun d => d.since ≤ before)) (cleanRevision c)
  pure { s with old := s.old.filter (fun d => d.since > before) }

/-- `update_from_rrdp_state` (src/rsync.rs:25-60). -/
def updateRsync (s : RrdpState) (c : Config) : M Unit :=
  match s.snapshot with
  | none => pure ()
  | some snap => do
    let snapshotPath := s.mappings.path snap.relPath
    let st ← RsyncDirState.recover c
    let rev : RsyncRevision := ⟨snap.session, snap.serial⟩
    createOutPath (rev.path c)
    writeSnapshotTree (rev.path c) c.rsyncIncludeHost snapshotPath
    (if c.rsyncUseSymlinks then symlinkCurrent rev c else renameCurrent rev st c)
    let st1 ← st.updateCurrent rev
    let st2 ← st1.cleanOld c
    st2.persist c

end KSync
