import Verif.Spec.Basic

/-!
# Vocabulary for the validator
-/

namespace KSync

/-! ## Reports -/

/-- The CA names repository `u`. -/
def ValidatedCa.Names (ca : ValidatedCa) (u : Str) : Prop := ca.info.siaRrdp = some u

instance (ca : ValidatedCa) (u : Str) : Decidable (ca.Names u) :=
  inferInstanceAs (Decidable (_ = _))

/-- The CAs in the report that name repository `u`. -/
def Report.casOf (rep : Report) (u : Str) : List ValidatedCa :=
  rep.certs.filter (fun ca => decide (ca.Names u))

/-- The numbers and issues of `r` are those of the CAs in `l` taken together. -/
structure RepoReport.Sums (r : RepoReport) (l : List ValidatedCa) : Prop where
  caCerts : r.caCerts = (l.map (fun ca => ca.children.length)).sum
  roas : r.roas = (l.map (fun ca => ca.roas.length)).sum
  vrps : r.vrps = (l.map (fun ca => (ca.roas.map (fun roa => roa.vrps.length)).sum)).sum
  aspas : r.aspas = (l.map (fun ca => ca.aspas.length)).sum
  routers : r.routers = (l.map (fun ca => ca.routers.length)).sum
  issues : r.issues = l.flatMap (fun ca => ca.issues)

/-- The report has an entry for exactly the repositories named by a CA in it, and each is
the sum over these CAs. -/
structure Report.Adds (rep : Report) : Prop where
  seen : ∀ u, mapGet rep.repos u = none ↔ rep.casOf u = []
  sums : ∀ u r, mapGet rep.repos u = some r → r.Sums (rep.casOf u)

/-- Same numbers, and the same issues in some order. -/
structure RepoReport.SameNumbers (r o : RepoReport) : Prop where
  caCerts : r.caCerts = o.caCerts
  roas : r.roas = o.roas
  vrps : r.vrps = o.vrps
  aspas : r.aspas = o.aspas
  routers : r.routers = o.routers
  issues : r.issues.Perm o.issues

/-! ## One CA -/

section
variable [Ext]

/-- What is recorded about a CA is what its certificate says: the places of its files, its
manifest and its repository, and the rest. -/
structure CaInfo.Of (i : CaInfo) (c : ResCert) : Prop where
  files : c.siaCa = some i.siaCa
  manifest : c.siaMft = some i.siaMft
  rrdp : c.siaRrdp = i.siaRrdp
  rest : c.rest = i.rest

/-- The part of `uri` after its last dot is `e`. -/
def HasExtension (uri e : Str) : Prop := '.' ∉ e ∧ ∃ stem, uri = stem ++ '.' :: e

/-- The result for the ROA at `uri` states its payload: the AS authorised, and the prefixes with
their maximum lengths, those for IPv4 and those for IPv6 in the order of the ROA. -/
structure ValidatedRoa.States (r : ValidatedRoa) (uri : Str) (p : RoaPayload) : Prop where
  uri : r.uri = uri
  asn : ∀ v ∈ r.vrps, v.asn = p.asn
  v4 : (r.vrps.filter (fun v => !v.v6)).map (fun v => (v.addr, v.len, v.maxLen)) = p.v4
  v6 : (r.vrps.filter (fun v => v.v6)).map (fun v => (v.addr, v.len, v.maxLen)) = p.v6

/-- The result for the ASPA at `uri` states its payload. -/
structure ValidatedAspa.States (a : ValidatedAspa) (uri : Str) (p : AspaPayload) : Prop where
  uri : a.uri = uri
  customer : a.customer = p.customer
  providers : a.providers = p.providers

/-- File `uri` with hash `h` is listed on the manifest of the CA. -/
def Listed (info : CaInfo) (content : MftContent) (uri : Str) (h : Hash) : Prop :=
  ∃ name, (name, h) ∈ content.entries ∧ uri = info.siaCa.toStr ++ name

/-- The CA's manifest and CRL are in order: manifest and CRL are present, valid for the
issuer, the CRL is the one named by the manifest's certificate, is listed there with a
matching hash, is not stale and does not revoke the manifest's certificate. -/
structure InOrder (objs : List (Str × Bytes)) (issuer : ResCert) (info : CaInfo) (time : Time)
    (content : MftContent) (crlUri : RsyncUri) (crl : CrlObj) : Prop where
  manifest : ∃ obj mft, mapGet objs info.siaMft.toStr = some obj ∧ Ext.decodeMft obj = some mft ∧
    Ext.validateMft mft issuer time = some content
  named : content.crlUri = some crlUri
  crlFile : ∃ obj h, Listed info content crlUri.toStr h ∧ mapGet objs crlUri.toStr = some obj ∧
    Ext.mftHashOk h obj = true ∧ Ext.decodeCrl obj = some crl
  signed : Ext.crlSigOk crl issuer.key = true
  current : ¬ crl.nextUpdate < time
  unrevoked : content.eeSerial ∉ crl.revoked

/-- What a manifest entry can turn out to be. -/
inductive Finding where
  | child (rc : ResCert) (i : CaInfo)
  | router
  | roa (r : ValidatedRoa)
  | aspa (a : ValidatedAspa)
  | ignored
  | issue (k : IssueKind)

/-- The object listed as `(uri, h)` deserves the finding, at time `t`. -/
def Finding.Deserved (objs : List (Str × Bytes)) (issuer : ResCert) (crl : CrlObj) (time t : Time)
    (uri : Str) (h : Hash) (f : Finding) : Prop :=
  ∃ obj, mapGet objs uri = some obj ∧ Ext.mftHashOk h obj = true ∧
  match f with
  | .child rc i => HasExtension uri "cer".toList ∧ ∃ cert, Ext.decodeCert obj = some cert ∧
      cert.isCa = true ∧ cert.serial ∉ crl.revoked ∧ Ext.validateCa cert issuer time = some rc ∧
      i.Of rc
  | .router => HasExtension uri "cer".toList ∧ ∃ cert, Ext.decodeCert obj = some cert ∧
      cert.isCa = false ∧ Ext.validateRouter cert issuer time = true
  | .roa r => HasExtension uri "roa".toList ∧ ∃ x ee p, Ext.decodeRoa obj = some x ∧
      Ext.processRoa x issuer t = some (ee, p) ∧ ee ∉ crl.revoked ∧ r.States uri p
  | .aspa a => HasExtension uri "asa".toList ∧ ∃ x ee p, Ext.decodeAspa obj = some x ∧
      Ext.processAspa x issuer t = some (ee, p) ∧ ee ∉ crl.revoked ∧ a.States uri p
  | .ignored => HasExtension uri "gbr".toList
  | .issue _ => False

/-- The message of an issue is the reason why the object listed as `(uri, h)` is not accepted. -/
def IssueKind.Explains (objs : List (Str × Bytes)) (issuer : ResCert) (crl : CrlObj) (time t : Time)
    (uri : Str) (h : Hash) (k : IssueKind) : Prop :=
  (k = .notFound ∧ mapGet objs uri = none) ∨
  ∃ obj, mapGet objs uri = some obj ∧ (k = .hash ∧ Ext.mftHashOk h obj = false ∨
    Ext.mftHashOk h obj = true ∧ match k with
  | .roaParse => HasExtension uri "roa".toList ∧ Ext.decodeRoa obj = none
  | .roaInvalid => HasExtension uri "roa".toList ∧ ∃ x, Ext.decodeRoa obj = some x ∧
      ∀ ee p, Ext.processRoa x issuer t = some (ee, p) → ee ∈ crl.revoked
  | .aspaParse => HasExtension uri "asa".toList ∧ Ext.decodeAspa obj = none
  | .aspaInvalid => HasExtension uri "asa".toList ∧ ∃ x, Ext.decodeAspa obj = some x ∧
      ∀ ee p, Ext.processAspa x issuer t = some (ee, p) → ee ∈ crl.revoked
  | .certParse => HasExtension uri "cer".toList ∧ Ext.decodeCert obj = none
  | .certRevoked => HasExtension uri "cer".toList ∧ ∃ c, Ext.decodeCert obj = some c ∧
      c.isCa = true ∧ c.serial ∈ crl.revoked
  | .certInvalid => HasExtension uri "cer".toList ∧ ∃ c, Ext.decodeCert obj = some c ∧
      c.isCa = true ∧ Ext.validateCa c issuer time = none
  | .certInfo => HasExtension uri "cer".toList ∧ ∃ c rc, Ext.decodeCert obj = some c ∧
      c.isCa = true ∧ Ext.validateCa c issuer time = some rc ∧ (rc.siaCa = none ∨ rc.siaMft = none)
  | .routerInvalid => HasExtension uri "cer".toList ∧ ∃ c, Ext.decodeCert obj = some c ∧
      c.isCa = false ∧ Ext.validateRouter c issuer time = false
  | .unsupported => ∀ e ∈ ["roa".toList, "asa".toList, "cer".toList, "gbr".toList],
      ¬ HasExtension uri e
  | _ => False)

/-- The manifest of the CA is there and valid, and `content` is what it says. -/
def ManifestSays (objs : List (Str × Bytes)) (issuer : ResCert) (info : CaInfo) (time : Time)
    (content : MftContent) : Prop :=
  ∃ obj mft, mapGet objs info.siaMft.toStr = some obj ∧ Ext.decodeMft obj = some mft ∧
    Ext.validateMft mft issuer time = some content

/-- The CRL named by the manifest's certificate is on the manifest, and there is `obj` in its
place. -/
def CrlFound (objs : List (Str × Bytes)) (info : CaInfo) (content : MftContent) (uri : Str)
    (h : Hash) (obj : Bytes) : Prop :=
  content.crlUri.map (·.toStr) = some uri ∧ Listed info content uri h ∧ mapGet objs uri = some obj

/-- The issue tells what is not in order with the manifest or CRL of the CA. -/
def Issue.Spoils (objs : List (Str × Bytes)) (issuer : ResCert) (info : CaInfo) (time : Time)
    (i : Issue) : Prop :=
  match i.msg with
  | .noManifest => i.uri = some info.siaMft.toStr ∧ mapGet objs info.siaMft.toStr = none
  | .mftParse => i.uri = some info.siaMft.toStr ∧ ∃ obj, mapGet objs info.siaMft.toStr = some obj ∧
      Ext.decodeMft obj = none
  | .mftInvalid => i.uri = some info.siaMft.toStr ∧ ∃ obj mft,
      mapGet objs info.siaMft.toStr = some obj ∧ Ext.decodeMft obj = some mft ∧
      Ext.validateMft mft issuer time = none
  | .noCrlUri => i.uri = some info.siaMft.toStr ∧ ∃ content,
      ManifestSays objs issuer info time content ∧ content.crlUri = none
  | .crlNotOnMft => i.uri = some info.siaMft.toStr ∧ ∃ content u,
      ManifestSays objs issuer info time content ∧ content.crlUri = some u ∧
      ∀ h, ¬ Listed info content u.toStr h
  | .crlNotFound => ∃ content u, ManifestSays objs issuer info time content ∧
      content.crlUri = some u ∧ i.uri = some u.toStr ∧ mapGet objs u.toStr = none
  | .crlHash => ∃ content u h obj, ManifestSays objs issuer info time content ∧
      CrlFound objs info content u h obj ∧ i.uri = some u ∧ Ext.mftHashOk h obj = false
  | .crlParse => ∃ content u h obj, ManifestSays objs issuer info time content ∧
      CrlFound objs info content u h obj ∧ i.uri = some u ∧ Ext.decodeCrl obj = none
  | .crlSig => ∃ content u h obj crl, ManifestSays objs issuer info time content ∧
      CrlFound objs info content u h obj ∧ i.uri = some u ∧ Ext.decodeCrl obj = some crl ∧
      Ext.crlSigOk crl issuer.key = false
  | .crlStale => ∃ content u h obj crl, ManifestSays objs issuer info time content ∧
      CrlFound objs info content u h obj ∧ i.uri = some u ∧ Ext.decodeCrl obj = some crl ∧
      crl.nextUpdate < time
  | .mftRevoked => ∃ content u h obj crl, ManifestSays objs issuer info time content ∧
      CrlFound objs info content u h obj ∧ i.uri = some u ∧ Ext.decodeCrl obj = some crl ∧
      content.eeSerial ∈ crl.revoked
  | _ => False

/-- The finding is right: it is deserved, or it is an issue that gives a good reason and nothing
else is deserved. -/
def Finding.Right (objs : List (Str × Bytes)) (issuer : ResCert) (crl : CrlObj) (time t : Time)
    (uri : Str) (h : Hash) (f : Finding) : Prop :=
  match f with
  | .issue k => (∀ f', ¬ Finding.Deserved objs issuer crl time t uri h f') ∧
      k.Explains objs issuer crl time t uri h
  | f => Finding.Deserved objs issuer crl time t uri h f

/-- The result for a CA consists of the findings `fs` for the URIs `us`. -/
structure ConsistsOf (ca : ValidatedCa) (kids : List (ResCert × CaInfo))
    (fs : List (Str × Finding)) : Prop where
  children : ca.children = fs.filterMap (fun x => match x.2 with
    | .child _ i => some (x.1, i) | _ => none)
  kids : kids = fs.filterMap (fun x => match x.2 with | .child rc i => some (rc, i) | _ => none)
  routers : ca.routers = fs.filterMap (fun x => match x.2 with | .router => some x.1 | _ => none)
  roas : ca.roas = fs.filterMap (fun x => match x.2 with | .roa r => some r | _ => none)
  aspas : ca.aspas = fs.filterMap (fun x => match x.2 with | .aspa a => some a | _ => none)
  ignored : ca.ignored = fs.filterMap (fun x => match x.2 with | .ignored => some x.1 | _ => none)
  issues : ca.issues = fs.filterMap (fun x => match x.2 with
    | .issue k => some ⟨some x.1, k⟩ | _ => none)

/-- The result for a CA whose manifest and CRL are in order: one right finding for each file
on the manifest but the CRL. -/
structure Examined (env : Env) (objs : List (Str × Bytes)) (issuer : ResCert) (info : CaInfo)
    (time : Time) (content : MftContent) (crlUri : RsyncUri) (crl : CrlObj) (ca : ValidatedCa)
    (kids : List (ResCert × CaInfo)) : Prop where
  sameInfo : ca.info = info
  order : InOrder objs issuer info time content crlUri crl
  findings : ∃ fs : List (Str × Finding), ConsistsOf ca kids fs ∧ (fs.map (·.1)).Nodup ∧
    (∀ u, u ∈ fs.map (·.1) ↔ u ≠ crlUri.toStr ∧ ∃ h, Listed info content u h) ∧
    ∀ x ∈ fs, ∃ h k, Listed info content x.1 h ∧ x.2.Right objs issuer crl time (env.clock k) x.1 h

/-- Nothing is accepted, and there is exactly one issue, which satisfies `P`. -/
structure Rejected (info : CaInfo) (ca : ValidatedCa) (kids : List (ResCert × CaInfo))
    (P : Issue → Prop) : Prop where
  sameInfo : ca.info = info
  nothing : ca.children = [] ∧ ca.routers = [] ∧ ca.roas = [] ∧ ca.aspas = [] ∧ ca.ignored = [] ∧
    kids = []
  issue : ∃ i, ca.issues = [i] ∧ P i

/-- The URIs of the objects accepted in the result of a CA. -/
def ValidatedCa.accepted (ca : ValidatedCa) : List Str :=
  ca.children.map (·.1) ++ ca.routers ++ ca.roas.map (·.uri) ++ ca.aspas.map (·.uri)

/-- Neither manifest nor CRL can be relied upon: whatever could be taken for a manifest in
order lists a file name more than once. -/
def Disordered (objs : List (Str × Bytes)) (issuer : ResCert) (info : CaInfo) (time : Time) : Prop :=
  ∀ content crlUri crl, InOrder objs issuer info time content crlUri crl →
    ¬ (content.entries.map (·.1)).Nodup

/-- The result for the CA with certificate `issuer`: nothing, if it names no repository, the
repository has no (usable) data or manifest and CRL are not in order; otherwise a finding for each
file on the manifest.  `D` says what data may be used for a repository, `N` when there are none. -/
inductive Judged (env : Env) (D : Str → List (Str × Bytes) → Prop) (N : Str → Prop) (issuer : ResCert)
    (info : CaInfo) (time : Time) (ca : ValidatedCa) (kids : List (ResCert × CaInfo)) : Prop
  | noRrdp (h : info.siaRrdp = none)
      (hr : Rejected info ca kids (· = ⟨some info.siaCa.toStr, .noSiaRrdp⟩))
  | noData (u : Str) (h : info.siaRrdp = some u) (hn : N u)
      (hr : Rejected info ca kids (· = ⟨some info.siaCa.toStr, .repoData⟩))
  | disordered (u : Str) (objs : List (Str × Bytes)) (h : info.siaRrdp = some u) (hd : D u objs)
      (hdis : Disordered objs issuer info time)
      (hr : Rejected info ca kids (Issue.Spoils objs issuer info time))
  | examined (u : Str) (objs : List (Str × Bytes)) (content : MftContent) (crlUri : RsyncUri)
      (crl : CrlObj) (h : info.siaRrdp = some u) (hd : D u objs)
      (he : Examined env objs issuer info time content crlUri crl ca kids)

/-- The issue has a cause, and names it: the CA's certificate names no repository; there are no data
for it; the manifest or CRL is not in order; or a certain object on the manifest cannot be
accepted. -/
inductive Issue.Caused (env : Env) (D : Str → List (Str × Bytes) → Prop) (N : Str → Prop)
    (issuer : ResCert) (info : CaInfo) (time : Time) (i : Issue) : Prop
  | noRrdp (h : info.siaRrdp = none) (hi : i = ⟨some info.siaCa.toStr, .noSiaRrdp⟩)
  | noData (u : Str) (h : info.siaRrdp = some u) (hn : N u)
      (hi : i = ⟨some info.siaCa.toStr, .repoData⟩)
  | disordered (u : Str) (objs : List (Str × Bytes)) (h : info.siaRrdp = some u) (hd : D u objs)
      (hi : i.Spoils objs issuer info time)
  | object (u : Str) (objs : List (Str × Bytes)) (content : MftContent) (crlUri : RsyncUri)
      (crl : CrlObj) (x : Str) (hash : Hash) (t : Nat) (h : info.siaRrdp = some u) (hd : D u objs)
      (ho : InOrder objs issuer info time content crlUri crl) (hx : x ≠ crlUri.toStr)
      (hl : Listed info content x hash) (hi : i.uri = some x)
      (he : i.msg.Explains objs issuer crl time (env.clock t) x hash)

/-- `c` is the trust anchor of the TAL: it was obtained from there and has the right key. -/
def TrustAnchor (env : Env) (fs : FS) (time : Time) (t : Tal) (c : ResCert) : Prop :=
  c.key = t.key ∧ ∃ b e, t.source.Body env fs none b e ∧ Ext.validateTa b time = some c

/-! ## Repository data -/

/-- The objects of a repository: the content of each URI. -/
abbrev Objects := Str → Option Bytes

/-- The URI a delta element is about. -/
def DeltaElement.about : DeltaElement → Str
  | .publish u _ => u.toStr
  | .update u _ _ => u.toStr
  | .withdraw u _ => u.toStr

/-- The elements of a delta correctly describe the change from `a` to `b`. -/
structure ChangeOf (els : List DeltaElement) (a b : Objects) : Prop where
  once : (els.map (·.about)).Nodup
  publish : ∀ u x, .publish u x ∈ els → b u.toStr = some x
  update : ∀ u h x, .update u h x ∈ els → b u.toStr = some x ∧
    ∃ old, a u.toStr = some old ∧ Ext.sha old = h
  withdraw : ∀ u h, .withdraw u h ∈ els → b u.toStr = none ∧
    ∃ old, a u.toStr = some old ∧ Ext.sha old = h
  rest : ∀ u, u ∉ els.map (·.about) → b u = a u

/-- The objects in a snapshot (the last one if a URI occurs twice). -/
def SnapshotOf (els : List (RsyncUri × Bytes)) (o : Objects) : Prop :=
  ∀ u, o u = (els.reverse.find? (fun e => decide (e.1.toStr = u))).map (·.2)

/-- The cached data are those of the version they claim to be, `content` giving the objects
for each session and serial. -/
def RepoData.Genuine (d : RepoData) (content : Uuid → Nat → Objects) : Prop :=
  ∀ u, mapGet d.objects u = content d.session d.serial u

/-- All data in the cache are those of the version they claim to be. -/
def Visited.Genuine (v : Visited) (content : Str → Uuid → Nat → Objects) : Prop :=
  ∀ u d, mapGet v.data u = some d → d.Genuine (content u)

/-- How the repository with notification URI `u` is to be fetched: as configured, if it is, and
from that URI otherwise, with any certificate. -/
def Visited.fetcherOf (v : Visited) (u : Str) : Fetcher :=
  match v.fetchers.find? (fun e => decide (e.1 = u)) with
  | some e => e.2
  | none => ⟨u, none, true⟩

/-- The fetcher finds notification `n`. -/
def Fetcher.Finds (f : Fetcher) (env : Env) (fs : FS) (n : Notif) : Prop :=
  ∃ src etag b e, f.Locates f.notificationUri src ∧ src.Body env fs etag b e ∧
    Ext.parseNotif b = some n

/-- The fetcher finds notification `n`, sent with entity tag `e` if there is one. -/
def Fetcher.FindsWith (f : Fetcher) (env : Env) (fs : FS) (n : Notif) (e : Option Str) : Prop :=
  ∃ src etag b, f.Locates f.notificationUri src ∧ src.Body env fs etag b e ∧
    Ext.parseNotif b = some n

/-- Notification `n` is truthful: whatever has the announced hash of the snapshot or of a
delta is the content of the version or the change from the version before. (There is no version before
that with serial 0; serials have 64 bits.) -/
structure Truthful (content : Uuid → Nat → Objects) (n : Notif) : Prop where
  range : ∀ d ∈ n.deltas, 0 < d.serial ∧ d.serial < 2 ^ 64
  snapshot : ∀ b els, Ext.sha b = n.snapHash → Ext.parseSnapshot b = some els →
    SnapshotOf els (content n.session n.serial)
  deltas : ∀ d ∈ n.deltas, ∀ b els, Ext.sha b = d.hash → Ext.parseDelta b = some els →
    ∀ k, d.serial = k + 1 → ChangeOf els (content n.session k) (content n.session (k + 1))

/-- All notifications that can be found are truthful. -/
def Visited.Sources (v : Visited) (env : Env) (fs : FS) (content : Str → Uuid → Nat → Objects) :
    Prop :=
  ∀ u n, (v.fetcherOf u).Finds env fs n → Truthful (content u) n

/-- The objects are those of some version of the repository, if all sources are truthful and the
data in the cache at the start were those of some version. -/
def SomeVersion (env : Env) (fs : FS) (v : Visited) (u : Str) (objs : List (Str × Bytes)) : Prop :=
  ∀ content, v.Sources env fs content → v.Genuine content →
    ∃ session serial, ∀ x, mapGet objs x = content u session serial x

/-- The repository `u` has the object `obj` at URI `x`: in the data cached at the start, or in a
snapshot or delta that can be obtained. -/
inductive Available (env : Env) (fs : FS) (v : Visited) (u x : Str) (obj : Bytes) : Prop
  | cached (d : RepoData) (hd : mapGet v.data u = some d) (ho : mapGet d.objects x = some obj)
  | snapshot (a : Str) (src : FetchSource) (b : Bytes) (e : Option Str)
      (els : List (RsyncUri × Bytes)) (y : RsyncUri) (hs : (v.fetcherOf u).Locates a src)
      (hb : src.Body env fs none b e) (hp : Ext.parseSnapshot b = some els) (ho : (y, obj) ∈ els)
      (hx : y.toStr = x)
  | delta (a : Str) (src : FetchSource) (b : Bytes) (e : Option Str) (els : List DeltaElement)
      (y : RsyncUri) (hs : (v.fetcherOf u).Locates a src) (hb : src.Body env fs none b e)
      (hp : Ext.parseDelta b = some els)
      (ho : .publish y obj ∈ els ∨ ∃ h, .update y h obj ∈ els) (hx : y.toStr = x)

/-- What data may be used for repository `u`: each object is one of the repository, and together
they are those of some version of it. -/
structure Usable (env : Env) (fs : FS) (v : Visited) (u : Str) (objs : List (Str × Bytes)) : Prop where
  version : SomeVersion env fs v u objs
  available : ∀ x obj, mapGet objs x = some obj → Available env fs v u x obj
  /-- what was brought up to date already is used as it is -/
  fetched : ∀ d, mapGet v.data u = some d → d.fetched = true → objs = d.objects

/-- There is a chain of certificates from a trust anchor, each in the repository that its issuer
names. -/
inductive Trusted (env : Env) (fs : FS) (time : Time) (v : Validator) : ResCert → Prop
  | ta (t : Tal) (c : ResCert) : t ∈ v.tals → TrustAnchor env fs time t c →
      Trusted env fs time v c
  | issued (issuer : ResCert) (i : CaInfo) (u x : Str) (obj : Bytes) (cert : CertObj) (c : ResCert) :
      Trusted env fs time v issuer → i.Of issuer → i.siaRrdp = some u →
      Available env fs v.repos u x obj → Ext.decodeCert obj = some cert → cert.isCa = true →
      Ext.validateCa cert issuer time = some c → Trusted env fs time v c

/-- The data were taken from the snapshot of `n`. -/
structure FromSnapshot (env : Env) (fs : FS) (f : Fetcher) (time : Time) (n : Notif)
    (d : RepoData) : Prop where
  session : d.session = n.session
  serial : d.serial = n.serial
  time : d.lastFetch = time
  fetched : d.fetched = true
  body : ∃ src b e els, f.Locates n.snapUri src ∧ src.Body env fs none b e ∧
    Ext.sha b = n.snapHash ∧ Ext.parseSnapshot b = some els ∧
    SnapshotOf els (mapGet d.objects)

/-- The objects with one content changed. -/
def Objects.set (o : Objects) (u : Str) (x : Option Bytes) : Objects := fun v => if v = u then x else o v

/-- Applying the elements of a delta in turn, each update and withdraw naming the content found. -/
inductive Patch : Objects → List DeltaElement → Objects → Prop
  | nil (o : Objects) : Patch o [] o
  | publish (u : RsyncUri) (x : Bytes) (els : List DeltaElement) (o o' : Objects) :
      Patch (o.set u.toStr (some x)) els o' → Patch o (.publish u x :: els) o'
  | update (u : RsyncUri) (h : Hash) (x : Bytes) (els : List DeltaElement) (o o' : Objects)
      (old : Bytes) : o u.toStr = some old → Ext.sha old = h →
      Patch (o.set u.toStr (some x)) els o' → Patch o (.update u h x :: els) o'
  | withdraw (u : RsyncUri) (h : Hash) (els : List DeltaElement) (o o' : Objects) (old : Bytes) :
      o u.toStr = some old → Ext.sha old = h → Patch (o.set u.toStr none) els o' →
      Patch o (.withdraw u h :: els) o'

/-- The serial after `s`: serials have 64 bits. -/
def serialAfter (s : Nat) : Nat := if s = 2 ^ 64 - 1 then 0 else s + 1

/-- Applying, completely, each delta that is the next one, starting with serial `s` and objects
`o` and ending with `s'` and `o'`. -/
inductive Patched (f : Fetcher) (env : Env) (fs : FS) :
    Nat → Objects → List DeltaInfo → Nat → Objects → Prop
  | nil (s : Nat) (o : Objects) : Patched f env fs s o [] s o
  | other (s : Nat) (o : Objects) (i : DeltaInfo) (is : List DeltaInfo) (s' : Nat) (o' : Objects) :
      i.serial ≠ serialAfter s → Patched f env fs s o is s' o' → Patched f env fs s o (i :: is) s' o'
  | apply (s : Nat) (o o1 : Objects) (i : DeltaInfo) (is : List DeltaInfo) (s' : Nat) (o' : Objects)
      (src : FetchSource) (b : Bytes) (e : Option Str) (els : List DeltaElement) :
      i.serial = serialAfter s → f.Locates i.uri src → src.Body env fs none b e →
      Ext.sha b = i.hash → Ext.parseDelta b = some els → Patch o els o1 →
      Patched f env fs (serialAfter s) o1 is s' o' → Patched f env fs s o (i :: is) s' o'

/-- How `get_latest` came to the data it returns. -/
inductive Latest (env : Env) (fs : FS) (v : Visited) (uri : Str) (offline : Bool) (time : Time)
    (tick : Nat) (d : RepoData) : Prop
  /-- there were data already, which are not looked at again -/
  | cached (d0 : RepoData) (h0 : mapGet v.data uri = some d0)
      (why : d0.fetched = true ∨ offline = true ∨ d0.lastFetch > env.clock tick - 3600)
      (same : d = { d0 with fetched := true })
  /-- there were data already and they are current -/
  | current (d0 : RepoData) (h0 : mapGet v.data uri = some d0) (hoff : offline = false)
      (why : (∃ src u m t, (v.fetcherOf uri).Locates (v.fetcherOf uri).notificationUri src ∧
          src = .uri u m ∧ env.http t ⟨u, m, d0.etag⟩ = .notModified) ∨
        ∃ n, (v.fetcherOf uri).Finds env fs n ∧ n.session = d0.session ∧ n.serial = d0.serial)
      (same : d = { d0 with fetched := true })
  /-- the snapshot was loaded -/
  | snapshot (n : Notif) (hn : (v.fetcherOf uri).Finds env fs n) (hoff : offline = false)
      (from' : FromSnapshot env fs (v.fetcherOf uri) time n d)
      (tag : (v.fetcherOf uri).FindsWith env fs n d.etag)
  /-- deltas were applied -/
  | deltas (n : Notif) (hn : (v.fetcherOf uri).Finds env fs n) (hoff : offline = false)
      (d0 : RepoData) (h0 : mapGet v.data uri = some d0) (session : n.session = d0.session)
      (session' : d.session = n.session) (marked : d.lastFetch = time ∧ d.fetched = true)
      (nonempty : n.deltas ≠ []) (gapless : Gapless n.deltas)
      (differs : n.serial ≠ d0.serial)
      (upTo : d0.serial + 1 < 2 ^ 64 → (∀ x ∈ n.deltas, x.serial < 2 ^ 64) →
        ∀ x ∈ n.deltas, x.serial ≤ d.serial)
      (serial : d.serial = d0.serial ∨ ∃ x ∈ n.deltas, x.serial = d.serial)
      (applied : ∃ ds, ds.Perm n.deltas ∧ Patched (v.fetcherOf uri) env fs d0.serial
        (mapGet d0.objects) ds d.serial (mapGet d.objects))
      (genuine : ∀ content, Truthful content n → d0.Genuine content → d.Genuine content)
      (unfetched : d0.fetched = false) (tag : (v.fetcherOf uri).FindsWith env fs n d.etag)

/-- The delta can always be had. -/
def Fetcher.Delivers (f : Fetcher) (env : Env) (fs : FS) (i : DeltaInfo) : Prop :=
  ∃ src, f.Locates i.uri src ∧ src.Answers env fs none (fun b => Ext.sha b = i.hash ∧
    ∃ els, Ext.parseDelta b = some els)

/-- The repository's server always answers with a notification and the snapshot it announces. -/
def Fetcher.Reliable (f : Fetcher) (env : Env) (fs : FS) : Prop :=
  ∃ src, f.Locates f.notificationUri src ∧ ∀ etag, src.Answers env fs etag (fun b =>
    ∃ n, Ext.parseNotif b = some n ∧ ∃ snap, f.Locates n.snapUri snap ∧
      snap.Answers env fs none (fun b => Ext.sha b = n.snapHash ∧
        ∃ els, Ext.parseSnapshot b = some els))

/-- There may be no data for the repository: there are none in the cache and the validation is
offline, or there are none brought up to date already and something is wrong with its server or
the local disk. -/
def Unavailable (env : Env) (fs : FS) (v : Visited) (offline : Bool) (u : Str) : Prop :=
  (∀ d, mapGet v.data u = some d → d.fetched = false) ∧
  if offline then mapGet v.data u = none
  else ¬ (NoFaults env ∧ (v.fetcherOf u).Reliable env fs)

/-! ## All CAs -/

mutual
/-- `l` are the results for the CA `c` and all below it; `T` relates a CA with its result
and the children that are descended into. -/
inductive Walked (T : ResCert → CaInfo → ValidatedCa → List (ResCert × CaInfo) → Prop) :
    ResCert → CaInfo → List ValidatedCa → Prop
  | node (c : ResCert) (i : CaInfo) (ca : ValidatedCa) (kids : List (ResCert × CaInfo))
      (rest : List ValidatedCa) : T c i ca kids → WalkedAll T kids rest → Walked T c i (ca :: rest)
inductive WalkedAll (T : ResCert → CaInfo → ValidatedCa → List (ResCert × CaInfo) → Prop) :
    List (ResCert × CaInfo) → List ValidatedCa → Prop
  | nil : WalkedAll T [] []
  | cons (c : ResCert) (i : CaInfo) (l l' : List ValidatedCa) (ks : List (ResCert × CaInfo)) :
      Walked T c i l → WalkedAll T ks l' → WalkedAll T ((c, i) :: ks) (l ++ l')
end

/-- The results for a list of TALs; `V` relates a TAL with its trust anchor. -/
inductive WalkedTals (V : Tal → ResCert → Prop)
    (T : ResCert → CaInfo → ValidatedCa → List (ResCert × CaInfo) → Prop) :
    List Tal → List ValidatedCa → Prop
  | nil : WalkedTals V T [] []
  | cons (t : Tal) (c : ResCert) (i : CaInfo) (ts : List Tal) (l l' : List ValidatedCa) :
      V t c → i.Of c → Walked T c i l → WalkedTals V T ts l' →
      WalkedTals V T (t :: ts) (l ++ l')

/-! ## Revocation -/

/-- The object is of a kind that is looked up in the CRL, and it is there: a ROA or ASPA whose EE
certificate (if the object is accepted at all) is revoked, or a revoked CA certificate. -/
def RevokedObject (issuer : ResCert) (crl : CrlObj) (uri : Str) (obj : Bytes) : Prop :=
  (HasExtension uri "roa".toList ∧ ∃ x, Ext.decodeRoa obj = some x ∧
    ∀ t ee p, Ext.processRoa x issuer t = some (ee, p) → ee ∈ crl.revoked) ∨
  (HasExtension uri "asa".toList ∧ ∃ x, Ext.decodeAspa obj = some x ∧
    ∀ t ee p, Ext.processAspa x issuer t = some (ee, p) → ee ∈ crl.revoked) ∨
  (HasExtension uri "cer".toList ∧ ∃ c, Ext.decodeCert obj = some c ∧ c.isCa = true ∧
    c.serial ∈ crl.revoked)

/-! ## TALs and the validator kept between runs -/

/-- The first https URI. -/
def FirstHttps (uris : List (Bool × Str)) (u : Str) : Prop :=
  ∃ pre post, uris = pre ++ (true, u) :: post ∧ ∀ x ∈ pre, x.1 = false

/-- TAL `t` is read from the bytes `b`: it has the key given there, and its certificate is to be
fetched from the first https URI given there. -/
def TalOf (b : Bytes) (name : Str) (t : Tal) : Prop :=
  ∃ uris u, Ext.parseTal b = some (uris, t.key) ∧ FirstHttps uris u ∧ t.name = name ∧
    t.source = .uri u true

/-- The TALs in the files, in order. -/
inductive TalsOf (fs : FS) : List Str → List Tal → Prop
  | nil : TalsOf fs [] []
  | cons (f : Str) (b : Bytes) (t : Tal) (files : List Str) (ts : List Tal) :
      fs.read (joinPath [] f) = some b → TalOf b f t → TalsOf fs files ts →
      TalsOf fs (f :: files) (t :: ts)

/-- The fetchers are stored under their notification URIs. -/
def Visited.Keyed (v : Visited) : Prop :=
  (v.fetchers.map (·.1)).Nodup ∧ ∀ e ∈ v.fetchers, e.2.notificationUri = e.1

/-- How the repository to be published is looked at in the validation: the notification URI is
in the directory `base`, which the staging directory stands for. -/
def Config.stagedFetcher (c : Config) (base : Str) : Fetcher :=
  ⟨c.notificationUri, some ⟨base, .file c.stagingDir⟩, true⟩

/-- `certs` are the results for all CAs below the TALs of `v`, at the clock reading number `k`,
with the files in `fs` and the data of repositories in `v`. -/
def Validates (env : Env) (fs : FS) (v : Validator) (offline : Bool) (k : Nat)
    (certs : List ValidatedCa) : Prop :=
  WalkedTals (TrustAnchor env fs (env.clock k))
    (fun c i ca kids => Judged env (Usable env fs v.repos) (Unavailable env fs v.repos offline)
      c i (env.clock k) ca kids) v.tals certs

/-- The same, `objs` being the objects used for repository `uri`. -/
def ValidatesWith (env : Env) (fs : FS) (v : Validator) (offline : Bool) (k : Nat)
    (uri : Str) (objs : List (Str × Bytes)) (certs : List ValidatedCa) : Prop :=
  WalkedTals (TrustAnchor env fs (env.clock k))
    (fun c i ca kids => Judged env
      (fun u o => Usable env fs v.repos u o ∧ (u = uri → o = objs))
      (fun u => Unavailable env fs v.repos offline u ∧ u ≠ uri)
      c i (env.clock k) ca kids) v.tals certs

end

end KSync
