import Verif.Model.Report

/-! # src/validation/tal.rs and src/validation/validator.rs -/

namespace KSync

variable [Ext]

/-! ## sort_and_verify_deltas (external crate `rpki`, called at rrdp.rs:106, validator.rs:672) -/

/-- Every serial is its predecessor plus one. -/
def contiguous : List Nat → Bool
  | a :: b :: l => decide (b = a + 1) && contiguous (b :: l)
  | _ => true

/-- Keep the `limit` most recent entries of a list sorted by increasing serial. -/
def truncateDeltas (limit : Option Nat) (sorted : List DeltaInfo) :
    Except Err (List DeltaInfo) :=
  match limit with
  | none => .ok sorted
  | some 0 =>
    if sorted = [] then .ok []
    else match Ext.zeroLimit with
      | .keepAll => .ok sorted
      | .keepNone => .ok []
      | .panic => .error .panic
  | some l => .ok (sorted.drop (sorted.length - l))

/-- `NotificationFile::sort_and_verify_deltas(limit)`: sort by increasing serial, keep
the most recent `limit`, report whether the sequence is contiguous.  Whether gaps are
looked for before or after truncation, and what `limit = 0` does, is left open
(`Ext.verifyFirst`, `Ext.zeroLimit`). -/
def sortVerify (limit : Option Nat) (ds : List DeltaInfo) : Except Err (List DeltaInfo) :=
  let sorted := sortBy (·.serial) ds
  match truncateDeltas limit sorted with
  | .error e => .error e
  | .ok kept =>
    let checked := if Ext.verifyFirst then sorted else kept
    if contiguous (checked.map (·.serial)) then .ok kept else .error .gaps

/-! ## Tal -/

/-- First https URI of a TAL (tal.rs:40-47). -/
def firstHttps : List (Bool × Str) → Option Str
  | [] => none
  | (true, u) :: _ => some u
  | (false, _) :: l => firstHttps l

/-- `Tal::parse` without a source override (tal.rs:36-59; called at rrdp.rs:302). -/
def Tal.parse (name : Str) (b : Bytes) : Except Err Tal :=
  match Ext.parseTal b with
  | none => .error .tal
  | some (uris, key) =>
    match firstHttps uris with
    | none => .error .tal
    | some u => .ok ⟨name, .uri u true, key⟩

/-- `Tal::validate_at` (tal.rs:65-83). -/
def Tal.validateAt (t : Tal) (time : Time) : M ResCert := do
  let resp ← t.source.fetch none none none
  let b ← resp.tryIntoData
  match Ext.validateTa b time with
  | none => M.throw .tal
  | some cert => if cert.key ≠ t.key then M.throw .tal else pure cert

/-! ## Validator -/

/-- `Validator::new` (validator.rs:32-43). -/
def Validator.new (tals : List Tal) (fetchers : List Fetcher) : Validator :=
  ⟨tals, ⟨mapOfList (fetchers.map (fun f => (f.notificationUri, f))), []⟩⟩

/-- `Validator::equivalent` (validator.rs:52-66). -/
def Validator.equivalent (v o : Validator) : Bool :=
  o.repos.fetchers.all (fun of => v.repos.fetchers.any (fun vf => decide (vf.2 = of.2)))
    && decide (v.tals = o.tals)

/-- `get_fetcher` (validator.rs:808-812). -/
def Visited.getFetcher (v : Visited) (uri : Str) : Fetcher :=
  match mapGet v.fetchers uri with
  | some f => f
  | none => ⟨uri, none, true⟩

/-- `read_bytes` (validator.rs:803-806). -/
def readBytes (f : Fetcher) (uri : Str) (hash : Hash) : M Bytes := do
  let src ← M.lift (f.resolve uri)
  let resp ← src.fetch (some hash) none none
  resp.tryIntoData

/-- `repository_data_from_snapshot` (validator.rs:752-786). -/
def dataFromSnapshot (n : Notif) (etag : Option Str) (f : Fetcher) (time : Time) :
    M RepoData := do
  let b ← readBytes f n.snapUri n.snapHash
  match Ext.parseSnapshot b with
  | none => M.throw .parse
  | some els =>
    pure ⟨etag, time, true, n.session, n.serial,
      mapOfList (els.map (fun e => (e.1.toStr, e.2)))⟩

/-- `retrieve_new_repository` (validator.rs:644-647). -/
def retrieveNew (f : Fetcher) (time : Time) : M RepoData := do
  let r ← f.readNotification none
  match r with
  | none => M.throw .noData
  | some (n, etag) => dataFromSnapshot n etag f time

/-- One delta element (validator.rs:700-738). -/
def applyElement (objs : List (Str × Bytes)) : DeltaElement → Except Err (List (Str × Bytes))
  | .publish u b => .ok (mapInsert objs u.toStr b)
  | .update u h b =>
    match mapGet objs u.toStr with
    | none => .error .delta
    | some old => if Ext.sha old ≠ h then .error .delta else .ok (mapInsert objs u.toStr b)
  | .withdraw u h =>
    match mapGet objs u.toStr with
    | none => .error .delta
    | some old => if Ext.sha old ≠ h then .error .delta else .ok (mapErase objs u.toStr)

/-- The loop over the elements of a delta (validator.rs:699-739): the objects are
changed in place, so an error leaves the elements before it applied. -/
def applyElements (objs : List (Str × Bytes)) : List DeltaElement →
    Except Err Unit × List (Str × Bytes)
  | [] => (.ok (), objs)
  | e :: es =>
    match applyElement objs e with
    | .error err => (.error err, objs)
    | .ok objs' => applyElements objs' es

/-- `data.serial + 1` (validator.rs:684, 694, 741) in 64 bits. This is the arithmetic of a release
build; in a build with overflow checks the addition panics when the serial is the last one. -/
def nextSerial (s : Nat) : Nat :=
  if s + 1 = 18446744073709551616 then 0 else s + 1

/-- The loop over the deltas (validator.rs:693-743), returning the data as left behind. -/
def applyDeltas (f : Fetcher) (d : RepoData) : List DeltaInfo → M (Except Err Unit × RepoData)
  | [] => pure (.ok (), d)
  | i :: is =>
    if i.serial ≠ nextSerial d.serial then applyDeltas f d is
    else do
      let r ← M.attempt (readBytes f i.uri i.hash)
      match r with
      | .error e => pure (.error e, d)
      | .ok b =>
        match Ext.parseDelta b with
        | none => pure (.error .parse, d)
        | some els =>
          match applyElements d.objects els with
          | (.error e, objs) => pure (.error e, { d with objects := objs })
          | (.ok (), objs) =>
            applyDeltas f { d with objects := objs, serial := nextSerial d.serial } is

/-- `update_repository_data_from_deltas` (validator.rs:657-750), returning the data as
left behind (it is modified in place). -/
def updateFromDeltas (n : Notif) (etag : Option Str) (d : RepoData) (f : Fetcher)
    (time : Time) : M (Except Err Unit × RepoData) :=
  if n.session ≠ d.session then pure (.error .delta, d)
  else match sortVerify none n.deltas with
    | .error e => pure (.error e, d)
    | .ok ds =>
      match ds with
      | [] => pure (.error .delta, d)
      | first :: _ =>
        if first.serial > nextSerial d.serial then pure (.error .delta, d)
        else do
          let r ← applyDeltas f d ds
          match r with
          | (.error e, d') => pure (.error e, d')
          | (.ok (), d') =>
            pure (.ok (), { d' with etag := etag, lastFetch := time, fetched := true })

/-- The final lookup of `get_latest` (validator.rs:639-641). -/
def Visited.final (v : Visited) (uri : Str) : Except Err RepoData × Visited :=
  match mapGet v.data uri with
  | some d => (.ok d, v)
  | none => (.error .repo, v)

/-- `get_latest` (validator.rs:528-642).  The result is the `Result` together with the
`VisitedRepositories` as left behind (also on error). -/
def Visited.getLatest (v : Visited) (uri : Str) (offline : Bool) (time : Time) :
    M (Except Err RepoData × Visited) :=
  let f := v.getFetcher uri
  match mapGet v.data uri with
  | none =>
    if offline then pure (v.final uri)
    else do
      let r ← M.attempt (retrieveNew f time)
      match r with
      | .ok d => pure (({ v with data := mapInsert v.data uri d } : Visited).final uri)
      | .error e => pure (.error e, v)
  | some d =>
    if d.fetched then pure (v.final uri)
    else
      let marked := { d with fetched := true }
      let v1 : Visited := { v with data := mapInsert v.data uri marked }
      if offline then pure (v1.final uri)
      else do
        let t ← now
        if d.lastFetch > t - 3600 then pure (v1.final uri)
        else do
          let r ← M.attempt (f.readNotification d.etag)
          match r with
          | .error e => pure (.error e, v1)
          | .ok none => pure (v1.final uri)
          | .ok (some (n, etag)) =>
            if n.session = d.session ∧ n.serial = d.serial then pure (v1.final uri)
            else do
              let u ← updateFromDeltas n etag marked f time
              let v2 : Visited := { v with data := mapInsert v.data uri u.2 }
              match u.1 with
              | .ok () => pure (v2.final uri)
              | .error _ => do
                let s ← M.attempt (dataFromSnapshot n etag f time)
                match s with
                | .ok d' =>
                  pure (({ v with data := mapInsert v2.data uri d' } : Visited).final uri)
                | .error _ =>
                  pure (({ v with data := mapErase v2.data uri } : Visited).final uri)

/-- `initialise_staging_data` (validator.rs:70-74). -/
def Validator.initStaging (v : Validator) (uri : Str) : M Validator := do
  let t ← now
  let (r, repos) ← v.repos.getLatest uri false t
  match r with
  | .ok _ => pure { v with repos := repos }
  | .error e => M.throw e

/-- `UriString::extension` (validator.rs:479-484): what follows the last dot. -/
def extension (s : Str) : Str :=
  if '.' ∈ s then (s.reverse.takeWhile (fun c => c ≠ '.')).reverse else []

/-- Progress through the objects of one CA. -/
structure CaAcc where
  ca : ValidatedCa
  kids : List (ResCert × CaInfo)

/-- One manifest entry (validator.rs:290-450). -/
def checkEntry (objs : List (Str × Bytes)) (issuer : ResCert) (crl : CrlObj) (time : Time)
    (acc : CaAcc) (e : Str × Hash) : M CaAcc :=
  let uri := e.1
  let issue (k : IssueKind) : CaAcc := { acc with ca := acc.ca.addIssue uri k }
  match mapGet objs uri with
  | none => pure (issue .notFound)
  | some obj =>
    if Ext.mftHashOk e.2 obj = false then pure (issue .hash)
    else if extension uri = "roa".toList then
      match Ext.decodeRoa obj with
      | none => pure (issue .roaParse)
      | some roa => do
        let t ← now
        match Ext.processRoa roa issuer t with
        | none => pure (issue .roaInvalid)
        | some (ee, payload) =>
          if ee ∈ crl.revoked then pure (issue .roaInvalid)
          else pure { acc with ca :=
            { acc.ca with roas := acc.ca.roas ++ [ValidatedRoa.make uri payload] } }
    else if extension uri = "cer".toList then
      match Ext.decodeCert obj with
      | none => pure (issue .certParse)
      | some child =>
        if child.isCa then
          if child.serial ∈ crl.revoked then pure (issue .certRevoked)
          else match Ext.validateCa child issuer time with
            | none => pure (issue .certInvalid)
            | some rc =>
              match CaInfo.ofCert rc with
              | none => pure (issue .certInfo)
              | some info => pure
                { ca := { acc.ca with children := acc.ca.children ++ [(uri, info)] }
                  kids := acc.kids ++ [(rc, info)] }
        else if Ext.validateRouter child issuer time then
          pure { acc with ca := { acc.ca with routers := acc.ca.routers ++ [uri] } }
        else pure (issue .routerInvalid)
    else if extension uri = "asa".toList then
      match Ext.decodeAspa obj with
      | none => pure (issue .aspaParse)
      | some aspa => do
        let t ← now
        match Ext.processAspa aspa issuer t with
        | none => pure (issue .aspaInvalid)
        | some (ee, payload) =>
          if ee ∈ crl.revoked then pure (issue .aspaInvalid)
          else pure { acc with ca :=
            { acc.ca with aspas := acc.ca.aspas ++ [⟨uri, payload.customer, payload.providers⟩] } }
    else if extension uri = "gbr".toList then
      pure { acc with ca := { acc.ca with ignored := acc.ca.ignored ++ [uri] } }
    else pure (issue .unsupported)

/-- The loop over the manifest entries (validator.rs:290-450). -/
def checkEntries (objs : List (Str × Bytes)) (issuer : ResCert) (crl : CrlObj) (time : Time)
    (acc : CaAcc) : List (Str × Hash) → M CaAcc
  | [] => pure acc
  | e :: es => do
    let acc' ← checkEntry objs issuer crl time acc e
    checkEntries objs issuer crl time acc' es

/-- `content.iter_uris(sia_ca)` collected in a hash map (validator.rs:195-198). -/
def mftEntries (siaCa : RsyncUri) (c : MftContent) : List (Str × Hash) :=
  mapOfList (c.entries.map (fun e => (siaCa.toStr ++ e.1, e.2)))

/-- What validator.rs:157-279 establishes before looking at the objects: the CRL and
the remaining manifest entries, or the issue that ends the validation of this CA. -/
def openCa (objs : List (Str × Bytes)) (issuer : ResCert) (info : CaInfo) (time : Time) :
    Except (Str × IssueKind) (CrlObj × List (Str × Hash)) :=
  let mftUri := info.siaMft.toStr
  match mapGet objs mftUri with
  | none => .error (mftUri, .noManifest)
  | some mftObj =>
    match Ext.decodeMft mftObj with
    | none => .error (mftUri, .mftParse)
    | some mft =>
      match Ext.validateMft mft issuer time with
      | none => .error (mftUri, .mftInvalid)
      | some content =>
        let entries := mftEntries info.siaCa content
        match content.crlUri with
        | none => .error (mftUri, .noCrlUri)
        | some crlUri =>
          let crlUri := crlUri.toStr
          match mapGet entries crlUri with
          | none => .error (mftUri, .crlNotOnMft)
          | some crlHash =>
            let entries := mapErase entries crlUri
            match mapGet objs crlUri with
            | none => .error (crlUri, .crlNotFound)
            | some crlObj =>
              if Ext.mftHashOk crlHash crlObj = false then .error (crlUri, .crlHash)
              else match Ext.decodeCrl crlObj with
                | none => .error (crlUri, .crlParse)
                | some crl =>
                  if Ext.crlSigOk crl issuer.key = false then .error (crlUri, .crlSig)
                  else if crl.nextUpdate < time then .error (crlUri, .crlStale)
                  else if content.eeSerial ∈ crl.revoked then .error (crlUri, .mftRevoked)
                  else .ok (crl, entries)

/-- The body of `validate_tree_at` for one CA (validator.rs:105-454): its result, the
child certificates to descend into, and the repositories as left behind. -/
def checkCa (v : Visited) (issuer : ResCert) (info : CaInfo) (offline : Bool) (time : Time) :
    M (ValidatedCa × List (ResCert × CaInfo) × Visited) :=
  let ca := ValidatedCa.empty info
  match info.siaRrdp with
  | none => pure (ca.addIssue info.siaCa.toStr .noSiaRrdp, [], v)
  | some rrdp => do
    let (r, v') ← v.getLatest rrdp offline time
    match r with
    | .error _ => pure (ca.addIssue info.siaCa.toStr .repoData, [], v')
    | .ok data =>
      match openCa data.objects issuer info time with
      | .error (uri, k) => pure (ca.addIssue uri k, [], v')
      | .ok (crl, entries) => do
        -- a hash map is iterated in an arbitrary order
        let n ← tick
        let env ← askEnv
        let acc ← checkEntries data.objects issuer crl time ⟨ca, []⟩
          (sortBy (fun e => env.prio n [e.1]) entries)
        pure (acc.ca, acc.kids, v')

/-- The recursion into the children (validator.rs:457-459); `rec` is the recursive call. -/
def validateKids (rec : Visited → ResCert → CaInfo → M (Report × Visited))
    (v : Visited) (rep : Report) : List (ResCert × CaInfo) → M (Report × Visited)
  | [] => pure (rep, v)
  | (c, i) :: ks => do
    let (r, v') ← rec v c i
    validateKids rec v' (rep.addOther r) ks

/-- `validate_tree_at` (validator.rs:105-462).  The first argument is the number of
nested calls the stack can hold. -/
def validateTree (offline : Bool) (time : Time) :
    Nat → Visited → ResCert → CaInfo → M (Report × Visited)
  | 0, _, _, _ => M.throw .overflow
  | depth + 1, v, issuer, info => do
    let (ca, kids, v') ← checkCa v issuer info offline time
    validateKids (validateTree offline time depth) v' (Report.zero.addCert ca) kids

/-- `validate_ta_at` (validator.rs:91-103). -/
def validateTa (depth : Nat) (v : Visited) (t : Tal) (offline : Bool) (time : Time) :
    M (Report × Visited) := do
  let cert ← t.validateAt time
  match CaInfo.ofCert cert with
  | none => M.throw .tal
  | some info => validateTree offline time depth v cert info

/-- The loop of `validate_at` (validator.rs:83-86). -/
def validateTals (depth : Nat) (v : Visited) (rep : Report) (offline : Bool) (time : Time) :
    List Tal → M (Report × Visited)
  | [] => pure (rep, v)
  | t :: ts => do
    let (r, v') ← validateTa depth v t offline time
    validateTals depth v' (rep.addOther r) offline time ts

/-- `Validator::validate` / `validate_at` (validator.rs:76-89). -/
def Validator.validate (depth : Nat) (v : Validator) (offline : Bool) : M (Report × Validator) := do
  let time ← now
  let (rep, repos) ← validateTals depth v.repos Report.zero offline time v.tals
  pure (rep, { v with repos := repos })

end KSync
