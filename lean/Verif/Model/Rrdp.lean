import Verif.Model.Validator

/-! # src/rrdp.rs -/

namespace KSync

variable [Ext]

/-! ## NotificationSource and SourceMappings -/

/-- `NotificationSource::build` (src/rrdp.rs:599-615). -/
def NotificationSource.build (uri : Str) : Except Err NotificationSource :=
  match httpsParent uri with
  | none => .error .noParent
  | some parent =>
    match stripPrefix parent uri with
    | none => .error .panic   -- the `unwrap` at src/rrdp.rs:607
    | some name => .ok ⟨uri, name, none⟩

/-- src/rrdp.rs:628-630. -/
def NotificationSource.tmpName (s : NotificationSource) : Str := s.name ++ ".tmp".toList

/-- `SourceMappings::build` (src/rrdp.rs:648-657). -/
def SourceMappings.build (c : Config) : Except Err SourceMappings :=
  match httpsParent c.notificationUri with
  | none => .error .noParent
  | some base => .ok ⟨base, c.rrdpDir⟩

/-- `SourceMappings::relative` (src/rrdp.rs:661-666). -/
def SourceMappings.relative (m : SourceMappings) (uri : Str) : Except Err Str :=
  match stripPrefix m.baseUri uri with
  | none => .error .unmapped
  | some rel => .ok rel

/-- `SourceMappings::uri` (src/rrdp.rs:669-673). -/
def SourceMappings.uri (m : SourceMappings) (rel : Str) : Str := httpsJoin m.baseUri rel

/-- `SourceMappings::path` (src/rrdp.rs:676-678). -/
def SourceMappings.path (m : SourceMappings) (rel : Str) : Path := joinPath m.rrdpDir rel

/-! ## Starting point -/

/-- `RrdpState::create` (src/rrdp.rs:48-62). -/
def RrdpState.create (c : Config) : Except Err RrdpState :=
  match NotificationSource.build c.notificationUri with
  | .error e => .error e
  | .ok src => match SourceMappings.build c with
    | .error e => .error e
    | .ok m => .ok ⟨src, m, none, [], [], none⟩

/-- `RrdpState::recover` (src/rrdp.rs:66-88). -/
def RrdpState.recover (p : Path) : M RrdpState := do
  let b ← readFile p
  M.orThrow .parse (Ext.decState b)

/-! ## Staging -/

/-- Outcome of comparing the current state with a notification (src/rrdp.rs:110-141). -/
inductive Decision where
  | noChange
  | before
  | proceed (sessionReset : Bool)
deriving DecidableEq, Repr

/-- src/rrdp.rs:110-141. -/
def decideUpdate (s : Option SnapshotState) (n : Notif) : Decision :=
  match s with
  | none => .proceed false
  | some snap =>
    if snap.session ≠ n.session then .proceed true
    else if snap.serial < n.serial then .proceed false
    else if snap.serial = n.serial then .noChange
    else .before

/-- `snapshot_stage` (src/rrdp.rs:486-505). -/
def RrdpState.snapshotStage (s : RrdpState) (n : Notif) (f : Fetcher) (c : Config) :
    M SnapshotState := do
  let rel ← M.lift (s.mappings.relative n.snapUri)
  f.retrieve n.snapUri n.snapHash (c.stagingPath rel)
  let since ← now
  pure ⟨n.session, n.serial, n.snapHash, rel, since⟩

/-- Is this delta new to us? (src/rrdp.rs:536-541). -/
def RrdpState.deltaIsNew (s : RrdpState) (sessionReset : Bool) (serial : Nat) : Bool :=
  sessionReset || match s.deltas.head? with
    | some highest => decide (highest.serial < serial)
    | none => true

/-- `deltas_stage` (src/rrdp.rs:518-559). -/
def RrdpState.deltasStage (s : RrdpState) (sessionReset : Bool) (f : Fetcher) (c : Config) :
    List DeltaInfo → M (List DeltaState)
  | [] => pure []
  | d :: ds =>
    if s.deltaIsNew sessionReset d.serial then do
      let rel ← M.lift (s.mappings.relative d.uri)
      f.retrieve d.uri d.hash (c.stagingPath rel)
      let since ← now
      let rest ← s.deltasStage sessionReset f c ds
      pure (⟨since, d.serial, d.hash, rel⟩ :: rest)
    else s.deltasStage sessionReset f c ds

/-- Lowest serial still listed, or the notification's own serial (src/rrdp.rs:164-168). -/
def cutoffOf (n : Notif) : Nat :=
  match n.deltas.head? with
  | some d => d.serial
  | none => n.serial

/-- src/rrdp.rs:143-181: what `update_staged` does once it has decided to update. -/
def RrdpState.stage (s : RrdpState) (c : Config) (n : Notif) (etag : Option Str)
    (sessionReset : Bool) : M (Option StagedChanges) := do
  writeBuf (c.stagingPath s.source.name) (Ext.writeNotif n)
  let snap ← s.snapshotStage n c.fetcher c
  let deltas ← s.deltasStage sessionReset c.fetcher c n.deltas
  pure (some ⟨etag, snap, deltas, cutoffOf n, sessionReset⟩)

/-- `update_staged` (src/rrdp.rs:96-183). -/
def RrdpState.updateStaged (s : RrdpState) (c : Config) : M (Option StagedChanges) := do
  let r ← c.fetcher.readNotification s.source.etag
  match r with
  | none => pure none
  | some (n, etag) => do
    let ds ← M.lift (sortVerify c.rrdpMaxDeltas n.deltas)
    let n' := { n with deltas := ds }
    match decideUpdate s.snapshot n' with
    | .noChange => pure none
    | .before => M.throw .serialBefore
    | .proceed reset => s.stage c n' etag reset

/-! ## Pre-validation -/

/-- Reading the configured TALs (src/rrdp.rs:298-304). -/
def readTals : List Str → M (List Tal)
  | [] => pure []
  | f :: fs => do
    let b ← readFile (joinPath [] f)
    let t ← M.lift (Tal.parse f b)
    let ts ← readTals fs
    pure (t :: ts)

/-- `create_validator` (src/rrdp.rs:297-316). -/
def createValidator (c : Config) : M Validator := do
  let tals ← readTals c.talFiles
  let base ← M.orThrow .noParent (httpsParent c.notificationUri)
  pure (Validator.new tals [⟨c.notificationUri, some ⟨base, .file c.stagingDir⟩, true⟩])

/-- `new_validator_needed` (src/rrdp.rs:319-324). -/
def newValidatorNeeded (existing : Option Validator) (fresh : Validator) : Bool :=
  match existing with
  | some v => !v.equivalent fresh
  | none => true

/-- First half of `reconfigure_validator` (src/rrdp.rs:269-279): which validator to use. -/
def chooseValidator (existing : Option Validator) (c : Config) : M (Option Validator) :=
  if c.talFiles = [] then pure none
  else do
    let fresh ← createValidator c
    if newValidatorNeeded existing fresh then pure (some fresh) else pure existing

/-- `reconfigure_validator` (src/rrdp.rs:268-286). -/
def reconfigureValidator (existing : Option Validator) (c : Config) : M (Option Validator) := do
  let v ← chooseValidator existing c
  match v with
  | none => pure none
  | some v => do
    let v' ← v.initStaging c.notificationUri
    pure (some v')

/-- The verdict on a report (src/rrdp.rs:198-243): `ok` means go on. -/
def verdict (c : Config) (rep : Report) : Except Err Unit :=
  match mapGet rep.repos c.notificationUri with
  | some r =>
    if r.issues = [] then .ok ()
    else if c.talRejectInvalid then .error .invalid else .ok ()
  | none => if c.talRejectInvalid then .error .notSeen else .ok ()

/-- `pre_validate` (src/rrdp.rs:188-248). -/
def RrdpState.preValidate (depth : Nat) (s : RrdpState) (c : Config) : M RrdpState := do
  let v ← reconfigureValidator s.validator c
  match v with
  | none => pure { s with validator := none }
  | some v => do
    let (rep, v') ← v.validate depth c.offlineValidation
    M.lift (verdict c rep)
    pure { s with validator := some v' }

/-! ## Applying -/

/-- Put files on the deprecated list, each stamped with the current time
(`DeprecatedFile::new`, src/rrdp.rs:793-800). -/
def deprecate (m : SourceMappings) : List DeltaState → M (List DeprecatedFile)
  | [] => pure []
  | d :: ds => do
    let t ← now
    let rest ← deprecate m ds
    pure (⟨t, m.path d.relPath⟩ :: rest)

/-- `deltas_deprecate_before` (src/rrdp.rs:567-577). -/
def RrdpState.deprecateBefore (s : RrdpState) (cutoff : Nat) : M RrdpState :=
  match s.deltas.findIdx? (fun d => d.serial < cutoff) with
  | none => pure s
  | some i => do
    let dep ← deprecate s.mappings (s.deltas.drop i)
    pure { s with deltas := s.deltas.take i, deprecated := s.deprecated ++ dep }

/-- `deltas_deprecate_all` (src/rrdp.rs:580-587). -/
def RrdpState.deprecateAll (s : RrdpState) : M RrdpState := do
  let dep ← deprecate s.mappings s.deltas
  pure { s with deltas := [], deprecated := s.deprecated ++ dep }

/-- `snapshot_path` (src/rrdp.rs:507-511). -/
def RrdpState.snapshotPath (s : RrdpState) : Option Path :=
  s.snapshot.map (fun snap => s.mappings.path snap.relPath)

/-- Removal of the due files (src/rrdp.rs:383-397). -/
def cleanFile (d : DeprecatedFile) : M Unit := do
  let fs ← getFs
  if fs.exists? d.path then removeFileAndEmptyParents d.path else pure ()

/-- `clean` (src/rrdp.rs:380-402). -/
def RrdpState.clean (s : RrdpState) (c : Config) : M RrdpState := do
  let before ← secondsAgo c.cleanupAfter
  M.forEach (s.deprecated.filter (fun d => d.since ≤ before)) cleanFile
  pure { s with deprecated := s.deprecated.filter (fun d => d.since > before) }

/-- Add new deltas and re-order in descending serial order (src/rrdp.rs:368-370). -/
def mergeDeltas (old new : List DeltaState) : List DeltaState :=
  (sortBy (·.serial) (old ++ new)).reverse

/-- Deprecation of the old snapshot (src/rrdp.rs:353-355). -/
def RrdpState.deprecateSnapshot (s : RrdpState) : M RrdpState :=
  match s.snapshotPath with
  | none => pure s
  | some p => do
    let t ← now
    pure { s with deprecated := s.deprecated ++ [⟨t, p⟩] }

/-- Moving the staged files to the RRDP directory (src/rrdp.rs:339-350). -/
def moveStaged (c : Config) (st : StagedChanges) : M Unit := do
  moveFile c.stagingDir c.rrdpDir st.snapshot.relPath
  M.forEach st.deltas (fun d => moveFile c.stagingDir c.rrdpDir d.relPath)

/-- The bookkeeping of `apply_staged_changed` (src/rrdp.rs:352-370). -/
def RrdpState.absorb (s : RrdpState) (st : StagedChanges) : M RrdpState := do
  let s1 ← s.deprecateSnapshot
  let s2 := { s1 with snapshot := some st.snapshot }
  let s3 ← if st.sessionReset then s2.deprecateAll else s2.deprecateBefore st.cutoff
  pure { s3 with deltas := mergeDeltas s3.deltas st.deltas }

/-- `apply_staged_changed` (src/rrdp.rs:333-377). -/
def RrdpState.apply (s : RrdpState) (st : StagedChanges) (c : Config) : M RrdpState := do
  moveStaged c st
  let s' ← s.absorb st
  s'.clean c

/-! ## Writing -/

/-- `make_notification_file` (src/rrdp.rs:456-482). -/
def RrdpState.makeNotif (s : RrdpState) : Except Err Notif :=
  match s.snapshot with
  | none => .error .noSnapshot
  | some snap => .ok
    { session := snap.session
      serial := snap.serial
      snapUri := s.mappings.uri snap.relPath
      snapHash := snap.hash
      deltas := s.deltas.map (fun d => ⟨d.serial, s.mappings.uri d.relPath, d.hash⟩) }

/-- The delay before the notification file is updated (src/rrdp.rs:417-423). -/
def notifyDelay (delay : Nat) : M Unit :=
  if delay > 0 then sleep delay else pure ()

/-- `write_notification` (src/rrdp.rs:416-454). -/
def RrdpState.writeNotification (s : RrdpState) (delay : Nat) : M Unit := do
  notifyDelay delay
  let n ← M.lift s.makeNotif
  let final := s.mappings.path s.source.name
  let tmp := s.mappings.path s.source.tmpName
  writeBuf tmp (Ext.writeNotif n)
  rename tmp final

/-- `persist` (src/rrdp.rs:405-411). -/
def RrdpState.persist (s : RrdpState) (p : Path) : M Unit :=
  writeBuf p (Ext.encState s)

end KSync
