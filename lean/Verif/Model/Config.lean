import Verif.Model.Fetch

/-! # src/config.rs -/

namespace KSync

variable [Ext]

/-- src/config.rs:165-167. -/
def Config.rsyncEnabled (c : Config) : Bool := !c.rsyncDisable

/-- src/config.rs:177-179. -/
def Config.rsyncCurrent (c : Config) : Path := c.rsyncDir ++ ["current".toList]

/-- src/config.rs:181-189. -/
def Config.fetcher (c : Config) : Fetcher := ⟨c.notificationUri, c.fetchMap, c.insecure⟩

/-- src/config.rs:195-197. -/
def Config.stagingDir (c : Config) : Path := c.stateDir ++ ["pre-validate-staging".toList]

/-- src/config.rs:191-193. -/
def Config.stagingPath (c : Config) (rel : Str) : Path := joinPath c.stagingDir rel

/-- src/config.rs:199-201. -/
def Config.rrdpStatePath (c : Config) : Path := c.stateDir ++ ["rrdp-state.json".toList]

/-- src/config.rs:203-205. -/
def Config.rsyncStatePath (c : Config) : Path := c.stateDir ++ ["rsync-state.json".toList]

/-- src/config.rs:207-209. -/
def Config.lockFile (c : Config) : Path := c.stateDir ++ ["krill-sync.lock".toList]

/-! ## Command line post-processing -/

/-- The options as given on the command line: directories are still strings. -/
structure RawConfig where
  stateDir : Str
  rrdpDir : Str
  rsyncDir : Str
  rest : Config

/-- src/config.rs:44 (`/var/lib/krill-sync`). -/
def defaultStateDir : Str := "/var/lib/krill-sync".toList
/-- src/config.rs:33. -/
def defaultRrdpDir : Str := "/var/lib/krill-sync/rrdp".toList
/-- src/config.rs:40. -/
def defaultRsyncDir : Str := "/var/lib/krill-sync/rsync".toList

/-- `Path == Path`: compares components, not text. -/
def samePath (a b : Str) : Bool :=
  decide ((a.head? = some '/') = (b.head? = some '/')) && decide (comps a = comps b)

/-- `str::replace`: every non-overlapping occurrence from the left.  The first argument
bounds the number of steps (the length of the text suffices). -/
def strReplaceAux : Nat → Str → Str → Str → Str
  | 0, _, _, s => s
  | _ + 1, _, _, [] => []
  | n + 1, pat, new, c :: s =>
    match stripPrefix pat (c :: s) with
    | some rest => new ++ strReplaceAux n pat new rest
    | none => c :: strReplaceAux n pat new s

/-- `Replace for PathBuf` (src/config.rs:46-56). -/
def strReplace (pat new s : Str) : Str := strReplaceAux s.length pat new s

/-- Directory part of `post_configure` (src/config.rs:296-307). -/
def followDirs (r : RawConfig) : Str × Str :=
  if samePath r.stateDir defaultStateDir then (r.rrdpDir, r.rsyncDir)
  else
    (if samePath r.rrdpDir defaultRrdpDir
      then strReplace defaultStateDir r.stateDir r.rrdpDir else r.rrdpDir,
     if samePath r.rsyncDir defaultRsyncDir
      then strReplace defaultStateDir r.stateDir r.rsyncDir else r.rsyncDir)

/-- The effect of `--insecure` on the source base (src/config.rs:266-277). -/
def effectiveSource (insecure : Bool) : Option FetchSource → Option FetchSource
  | some (.uri u m) => some (.uri u (m || insecure))
  | s => s

/-- `FetchSource::is_dir` (src/fetch.rs:200-205). -/
def FetchSource.isDir (fs : FS) : FetchSource → Bool
  | .file p => fs.isDir p
  | .uri u _ => decide (u.getLast? = some '/')

/-- `post_configure` (src/config.rs:254-310), logging left out. -/
def postConfigure (r : RawConfig) : M Config := do
  let base ← M.orThrow .noParent (httpsParent r.rest.notificationUri)
  let src := effectiveSource r.rest.insecure r.rest.sourceUriBase
  let fs ← getFs
  let fmap ← (match src with
    | some s => if s.isDir fs then pure (some ⟨base, s⟩) else M.throw .badSource
    | none => pure r.rest.fetchMap : M (Option FetchMap))
  let dirs := followDirs r
  pure { r.rest with
    stateDir := joinPath [] r.stateDir
    rrdpDir := joinPath [] dirs.1
    rsyncDir := joinPath [] dirs.2
    sourceUriBase := src
    fetchMap := fmap }

end KSync
