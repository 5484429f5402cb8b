import Verif.Model.Types

/-! # src/fetch.rs -/

namespace KSync

variable [Ext]

/-- The request/response part of `FetchSource::fetch` (src/fetch.rs:105-160). -/
def FetchSource.raw (src : FetchSource) (etag : Option Str) : M FetchResponse :=
  match src with
  | .uri u insecure => do
    let r ← httpGet ⟨u, insecure, etag⟩
    match r with
    | .fail => M.throw .http
    | .ok hdr body =>
      match hdr with
      | .invalid => M.throw .http
      | .absent => match body with
        | none => M.throw .http
        | some b => pure (.data b none)
      | .valid t => match body with
        | none => M.throw .http
        | some b => pure (.data b (some t))
    | .notModified => pure .unmodified
    | .other _ => M.throw .http
  | .file p => do
    let b ← readFile p
    pure (.data b none)

/-- `FetchSource::fetch` (src/fetch.rs:94-186): get, verify the hash, save. -/
def FetchSource.fetch (src : FetchSource) (hash : Option Hash) (etag : Option Str)
    (target : Option Path) : M FetchResponse := do
  let resp ← src.raw etag
  match resp with
  | .data b e =>
    match hash with
    | some h =>
      if Ext.sha b ≠ h then M.throw .hashMismatch
      else match target with
        | some t => do
          writeBuf t b
          pure .saved
        | none => pure (.data b e)
    | none =>
      match target with
      | some t => do
        writeBuf t b
        pure .saved
      | none => pure (.data b e)
  | r => pure r

/-- `FetchResponse::try_into_data` (src/fetch.rs:33-38). -/
def FetchResponse.tryIntoData : FetchResponse → M Bytes
  | .data b _ => pure b
  | _ => M.throw .noData

/-- `FetchSource::join` (src/fetch.rs:188-198). -/
def FetchSource.join (src : FetchSource) (rel : Str) : FetchSource :=
  match src with
  | .file p => .file (joinPath p rel)
  | .uri u m => .uri (httpsJoin u rel) m

/-- Is this text an HTTPS URI (`uri::Https::from_str` of the rpki crate; simplified to the
test of the scheme)? -/
def isHttps (s : Str) : Bool := "https://".toList.isPrefixOf (s.map Char.toLower)

/-- `FromStr for FetchSource` (src/fetch.rs:222-232): how `--source-uri-base` is read. -/
def FetchSource.fromStr (s : Str) : FetchSource :=
  if isHttps s then .uri s false else .file (joinPath [] s)

/-- `FetchMap::source` (src/fetch.rs:250-262). -/
def FetchMap.source (m : FetchMap) (uri : Str) : Except Err FetchSource :=
  match stripPrefix m.baseUri uri with
  | none => .error .unmapped
  | some rel => .ok (m.baseFetch.join rel)

/-- `Fetcher::resolve_source` (src/fetch.rs:328-333). -/
def Fetcher.resolve (f : Fetcher) (uri : Str) : Except Err FetchSource :=
  match f.fetchMap with
  | none => .ok (.uri uri f.insecure)
  | some m => m.source uri

/-- `Fetcher::read_notification_file` (src/fetch.rs:287-305); `none` = unmodified. -/
def Fetcher.readNotification (f : Fetcher) (etag : Option Str) :
    M (Option (Notif × Option Str)) := do
  let src ← M.lift (f.resolve f.notificationUri)
  let resp ← src.fetch none etag none
  match resp with
  | .data b e =>
    match Ext.parseNotif b with
    | some n => pure (some (n, e))
    | none => M.throw .parse
  | .unmodified => pure none
  | .saved => M.throw .panic   -- `unreachable!` (src/fetch.rs:300)

/-- `Fetcher::retrieve_file` (src/fetch.rs:307-326) for a target with the path of a file. -/
def Fetcher.retrieveTo (f : Fetcher) (uri : Str) (hash : Hash) (target : Path) : M Unit := do
  let existing ← M.attempt (readFile target)
  let download : M Unit := do
    let src ← M.lift (f.resolve uri)
    let _ ← src.fetch (some hash) none (some target)
    pure ()
  match existing with
  | .ok b => if Ext.sha b ≠ hash then download else pure ()
  | .error _ => download

/-- The same for a target whose path ends in a slash: it cannot be read, and what is fetched cannot be
written, once its parent directory has been created. -/
def Fetcher.retrieveNowhere (f : Fetcher) (uri : Str) (hash : Hash) (target : Path) : M Unit := do
  let src ← M.lift (f.resolve uri)
  let resp ← src.fetch (some hash) none none
  match resp with
  | .data _ _ => do
    createPathForFile target
    M.throw .io
  | _ => pure ()

/-- `Fetcher::retrieve_file` (src/fetch.rs:307-326).  The path of the target ends as the URI does: it is
the part of the URI behind that of a directory (src/rrdp.rs:493-494, 547-548). -/
def Fetcher.retrieve (f : Fetcher) (uri : Str) (hash : Hash) (target : Path) : M Unit :=
  if endsInName uri then f.retrieveTo uri hash target else f.retrieveNowhere uri hash target

end KSync
