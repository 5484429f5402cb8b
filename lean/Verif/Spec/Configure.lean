import Verif.Model.Config
import Verif.Spec.History

/-! # What may be given on the command line (for property C71) -/

namespace KSync

variable [Ext]

/-- A path component that means just itself. -/
structure PlainName (s : Str) : Prop where
  nonempty : s ≠ []
  noSlash : '/' ∉ s
  notDot : s ≠ ['.']
  notDotDot : s ≠ ['.', '.']

/-- The URI goes on after a directory `base` of the server. -/
structure InDirectory (uri base name : Str) : Prop where
  eq : uri = base ++ name
  slash : base.getLast? = some '/'
  /-- there is more than `https://` -/
  host : 8 < base.length
  nonempty : name ≠ []

/-- Files can be looked for below this place: a URI that ends in a slash, or a directory. -/
def UsableBase (fs : FS) : FetchSource → Prop
  | .uri u _ => ∃ t, u = t ++ ['/']
  | .file p => fs.isDir p = true

/-- The options that have nothing to do with places are the same. -/
structure SameOptions (c c' : Config) : Prop where
  uri : c.notificationUri = c'.notificationUri
  delay : c.rrdpNotifyDelay = c'.rrdpNotifyDelay
  maxDeltas : c.rrdpMaxDeltas = c'.rrdpMaxDeltas
  symlinks : c.rsyncUseSymlinks = c'.rsyncUseSymlinks
  disable : c.rsyncDisable = c'.rsyncDisable
  includeHost : c.rsyncIncludeHost = c'.rsyncIncludeHost
  cleanup : c.cleanupAfter = c'.cleanupAfter
  insecure : c.insecure = c'.insecure
  tals : c.talFiles = c'.talFiles
  scripts : c.scripts = c'.scripts
  reject : c.talRejectInvalid = c'.talRejectInvalid
  offline : c.offlineValidation = c'.offlineValidation

/-- There is nothing in the state directory but, perhaps, the lock file. -/
def EmptyButLock (c : Config) (fs : FS) : Prop :=
  ∀ q, c.stateDir <+: q → q ≠ c.stateDir → q ≠ c.lockFile → fs.get q = none

end KSync
