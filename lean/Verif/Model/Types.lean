import Verif.Model.FileOps

/-!
# Data types and external functions

The data types of src/rrdp.rs, src/rsync.rs, src/fetch.rs and src/validation, and the
functions of external crates (SHA-256, XML, JSON, RPKI object parsing and signature
checking) as the parameters of the model, collected in the class `Ext`.
-/

namespace KSync

/-! ## Fetching (src/fetch.rs) -/

/-- `FetchSource` (src/fetch.rs:75-79); the mode of a URI source is a Boolean
(`true` = `FetchMode::Insecure`, src/fetch.rs:62-72). -/
inductive FetchSource where
  | file (p : Path)
  | uri (u : Str) (insecure : Bool)
deriving DecidableEq, Repr

/-- `FetchMap` (src/fetch.rs:236-240). -/
structure FetchMap where
  baseUri : Str
  baseFetch : FetchSource
deriving DecidableEq, Repr

/-- `Fetcher` (src/fetch.rs:267-272). -/
structure Fetcher where
  notificationUri : Str
  fetchMap : Option FetchMap
  insecure : Bool
deriving DecidableEq, Repr

/-- `FetchResponse` (src/fetch.rs:26-30). -/
inductive FetchResponse where
  | data (b : Bytes) (etag : Option Str)
  | saved
  | unmodified
deriving DecidableEq, Repr

/-! ## RRDP files (`rpki::rrdp`) -/

/-- `rpki::rrdp::DeltaInfo`. Serials are `u64`; modelled as unbounded numbers. -/
structure DeltaInfo where
  serial : Nat
  uri : Str
  hash : Hash
deriving DecidableEq, Repr

/-- `rpki::rrdp::NotificationFile`. -/
structure Notif where
  session : Uuid
  serial : Nat
  snapUri : Str
  snapHash : Hash
  deltas : List DeltaInfo
deriving DecidableEq, Repr

/-- `rpki::uri::Rsync`: `rsync://authority/module/path`. -/
structure RsyncUri where
  authority : Str
  module : Str
  path : Str
deriving DecidableEq, Repr

/-- The textual form of an rsync URI. -/
def RsyncUri.toStr (u : RsyncUri) : Str :=
  "rsync://".toList ++ u.authority ++ '/' :: u.module ++ '/' :: u.path

/-- `rpki::rrdp::DeltaElement`. -/
inductive DeltaElement where
  | publish (uri : RsyncUri) (b : Bytes)
  | update (uri : RsyncUri) (old : Hash) (b : Bytes)
  | withdraw (uri : RsyncUri) (old : Hash)
deriving DecidableEq, Repr

/-! ## Validation data (src/validation) -/

/-- `Tal` (src/validation/tal.rs:26-30). -/
structure Tal where
  name : Str
  source : FetchSource
  key : Bytes
deriving DecidableEq, Repr

/-- `RepositoryData` (src/validation/validator.rs:816-832).  The `objects` hash map is a
list of key/value pairs used only through the map operations below. -/
structure RepoData where
  etag : Option Str
  lastFetch : Time
  fetched : Bool
  session : Uuid
  serial : Nat
  objects : List (Str × Bytes)
deriving DecidableEq, Repr

/-- `VisitedRepositories` (src/validation/validator.rs:466-469). -/
structure Visited where
  fetchers : List (Str × Fetcher)
  data : List (Str × RepoData)
deriving DecidableEq, Repr

/-- `Validator` (src/validation/validator.rs:26-29). -/
structure Validator where
  tals : List Tal
  repos : Visited
deriving DecidableEq, Repr

/-- `HashMap::insert`. -/
def mapInsert [DecidableEq κ] (m : List (κ × ν)) (k : κ) (v : ν) : List (κ × ν) :=
  (k, v) :: m.filter (fun e => e.1 ≠ k)

/-- `HashMap::remove`. -/
def mapErase [DecidableEq κ] (m : List (κ × ν)) (k : κ) : List (κ × ν) :=
  m.filter (fun e => e.1 ≠ k)

/-- `HashMap::get`. -/
def mapGet [DecidableEq κ] (m : List (κ × ν)) (k : κ) : Option ν := m.lookup k

/-- `Iterator::collect::<HashMap<_, _>>`: later entries win. -/
def mapOfList [DecidableEq κ] (l : List (κ × ν)) : List (κ × ν) :=
  l.foldl (fun m e => mapInsert m e.1 e.2) []

/-! ## RRDP state (src/rrdp.rs) -/

/-- `NotificationSource` (src/rrdp.rs:592-596). -/
structure NotificationSource where
  uri : Str
  name : Str
  etag : Option Str
deriving DecidableEq, Repr

/-- `SourceMappings` (src/rrdp.rs:636-645). -/
structure SourceMappings where
  baseUri : Str
  rrdpDir : Path
deriving DecidableEq, Repr

/-- `SnapshotState` (src/rrdp.rs:693-700). -/
structure SnapshotState where
  session : Uuid
  serial : Nat
  hash : Hash
  relPath : Str
  since : Time
deriving DecidableEq, Repr

/-- `DeltaState` (src/rrdp.rs:736-741). -/
structure DeltaState where
  since : Time
  serial : Nat
  hash : Hash
  relPath : Str
deriving DecidableEq, Repr

/-- `DeprecatedFile` (src/rrdp.rs:788-791). -/
structure DeprecatedFile where
  since : Time
  path : Path
deriving DecidableEq, Repr

/-- `RrdpState` (src/rrdp.rs:25-44). -/
structure RrdpState where
  source : NotificationSource
  mappings : SourceMappings
  snapshot : Option SnapshotState
  deltas : List DeltaState
  deprecated : List DeprecatedFile
  validator : Option Validator
deriving DecidableEq, Repr

/-- `StagedChanges` (src/rrdp.rs:770-776). -/
structure StagedChanges where
  etag : Option Str
  snapshot : SnapshotState
  deltas : List DeltaState
  cutoff : Nat
  sessionReset : Bool
deriving DecidableEq, Repr

/-! ## Rsync state (src/rsync.rs) -/

/-- `RsyncRevision` (src/rsync.rs:232-236). -/
structure RsyncRevision where
  session : Uuid
  serial : Nat
deriving DecidableEq, Repr

/-- `DeprecatedRsyncRevision` (src/rsync.rs:256-259). -/
structure DeprecatedRevision where
  since : Time
  revision : RsyncRevision
deriving DecidableEq, Repr

/-- `RsyncDirState` (src/rsync.rs:150-153). -/
structure RsyncDirState where
  current : Option RsyncRevision
  old : List DeprecatedRevision
deriving DecidableEq, Repr

/-! ## Configuration (src/config.rs:62-161) -/

/-- The options that steer the program.  `rsyncUseSymlinks` stands for
`rsync_dir_use_symlinks()` (src/config.rs:169-175). -/
structure Config where
  stateDir : Path
  rrdpDir : Path
  rsyncDir : Path
  rrdpNotifyDelay : Nat
  rrdpMaxDeltas : Option Nat
  rsyncUseSymlinks : Bool
  rsyncDisable : Bool
  rsyncIncludeHost : Bool
  cleanupAfter : Int
  insecure : Bool
  notificationUri : Str
  sourceUriBase : Option FetchSource
  fetchMap : Option FetchMap
  talFiles : List Str
  scripts : List Path
  talRejectInvalid : Bool
  offlineValidation : Bool
deriving DecidableEq, Repr

/-! ## RPKI objects -/

/-- What the validator looks at in a validated CA certificate
(`rpki::repository::ResourceCert`; report.rs:401-428). -/
structure ResCert where
  siaMft : Option RsyncUri
  siaCa : Option RsyncUri
  siaRrdp : Option Str
  key : Bytes
  /-- opaque: the remaining content (resources, serial, validity, ..) -/
  rest : Bytes
deriving DecidableEq, Repr

/-- Decoded certificate before validation. -/
structure CertObj where
  isCa : Bool
  serial : Nat
  raw : Bytes
deriving DecidableEq, Repr

/-- Manifest after validation: EE certificate facts and the listed files. -/
structure MftContent where
  crlUri : Option RsyncUri
  eeSerial : Nat
  /-- file name and hash -/
  entries : List (Str × Hash)
deriving DecidableEq, Repr

structure CrlObj where
  nextUpdate : Time
  revoked : List Nat
  raw : Bytes
deriving DecidableEq, Repr

/-- Payload of a ROA: AS, and per prefix (address bits, length, max length). -/
structure RoaPayload where
  asn : Nat
  v4 : List (Nat × Nat × Option Nat)
  v6 : List (Nat × Nat × Option Nat)
deriving DecidableEq, Repr

structure AspaPayload where
  customer : Nat
  providers : List Nat
deriving DecidableEq, Repr

/-- Treatment of `--rrdp-max-deltas 0` by `sort_and_verify_deltas` (external crate):
all three possibilities are covered by every theorem. -/
inductive ZeroLimit where
  | keepAll
  | keepNone
  | panic
deriving DecidableEq, Repr

/-- What survives serialisation of `RepositoryData`: `fetched` is skipped and defaults
to `false` (src/validation/validator.rs:826-827). -/
def RepoData.persisted (d : RepoData) : RepoData := { d with fetched := false }

/-- src/rrdp.rs:24-44 with the serde attributes of the embedded validator. -/
def RrdpState.persisted (s : RrdpState) : RrdpState :=
  { s with validator := s.validator.map (fun v =>
      { v with repos := { v.repos with
          data := v.repos.data.map (fun e => (e.1, e.2.persisted)) } }) }

/-- Functions of external crates, as parameters.  The proof fields are the only facts
assumed about them; `Verif/Model/Instance.lean` exhibits functions satisfying them. -/
class Ext where
  /-- SHA-256 (`rpki::rrdp::Hash::matches`) -/
  sha : Bytes → Hash
  /-- `NotificationFile::parse` / `write_xml` -/
  parseNotif : Bytes → Option Notif
  writeNotif : Notif → Bytes
  /-- `sort_and_verify_deltas` details that /repo does not determine -/
  zeroLimit : ZeroLimit
  verifyFirst : Bool
  /-- `ProcessSnapshot::process`: elements delivered, and whether parsing succeeded -/
  streamSnapshot : Bytes → List (RsyncUri × Bytes) × Bool
  /-- `Snapshot::parse` / `Delta::parse` -/
  parseSnapshot : Bytes → Option (List (RsyncUri × Bytes))
  parseDelta : Bytes → Option (List DeltaElement)
  /-- `serde_json` for the two state files -/
  encState : RrdpState → Bytes
  decState : Bytes → Option RrdpState
  encRsync : RsyncDirState → Bytes
  decRsync : Bytes → Option RsyncDirState
  /-- times used by `fix_since` -/
  cerTime : Bytes → Option Time
  crlTime : Bytes → Option Time
  sigTime : Bytes → Option Time
  /-- `rpki::repository::Tal::read_named`: URIs (`true` = https) and key -/
  parseTal : Bytes → Option (List (Bool × Str) × Bytes)
  /-- decode and validate a TA certificate -/
  validateTa : Bytes → Time → Option ResCert
  decodeCert : Bytes → Option CertObj
  validateCa : CertObj → ResCert → Time → Option ResCert
  validateRouter : CertObj → ResCert → Time → Bool
  decodeMft : Bytes → Option Bytes
  validateMft : Bytes → ResCert → Time → Option MftContent
  decodeCrl : Bytes → Option CrlObj
  crlSigOk : CrlObj → Bytes → Bool
  /-- manifest hash check (`ManifestHash::verify`) -/
  mftHashOk : Hash → Bytes → Bool
  decodeRoa : Bytes → Option Bytes
  /-- `Roa::process` without the CRL callback: EE serial and payload -/
  processRoa : Bytes → ResCert → Time → Option (Nat × RoaPayload)
  decodeAspa : Bytes → Option Bytes
  processAspa : Bytes → ResCert → Time → Option (Nat × AspaPayload)
  /-- assumption: the notification XML writer and parser agree -/
  parse_write : ∀ n, parseNotif (writeNotif n) = some n
  /-- assumption: serde round trip (`fetched` is not serialised, validator.rs:826) -/
  dec_enc : ∀ s : RrdpState, decState (encState s) = some s.persisted
  dec_enc_rsync : ∀ s, decRsync (encRsync s) = some s
  /-- assumption: a proper prefix of a JSON document for an object is not valid JSON -/
  dec_torn : ∀ (s : RrdpState) k, k < (encState s).length → decState ((encState s).take k) = none
  dec_rsync_torn : ∀ s k, k < (encRsync s).length → decRsync ((encRsync s).take k) = none


end KSync
