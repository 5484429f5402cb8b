import Verif.Model.Config

/-! # src/validation/report.rs -/

namespace KSync

/-- The messages of `ValidationIssue` (texts abbreviated to tags). -/
inductive IssueKind where
  | noSiaRrdp | repoData | noManifest | mftParse | mftInvalid | noCrlUri | crlNotOnMft
  | crlNotFound | crlHash | crlParse | crlSig | crlStale | mftRevoked
  | notFound | hash | roaInvalid | roaParse | certRevoked | certInvalid | certInfo
  | routerInvalid | certParse | aspaInvalid | aspaParse | unsupported
deriving DecidableEq, Repr

/-- `ValidationIssue` (report.rs:369-372). -/
structure Issue where
  uri : Option Str
  msg : IssueKind
deriving DecidableEq, Repr

/-- `ValidatedCaCertInfo` (report.rs:394-399). -/
structure CaInfo where
  siaMft : RsyncUri
  siaCa : RsyncUri
  siaRrdp : Option Str
  rest : Bytes
deriving DecidableEq, Repr

/-- `TryFrom<&ResourceCert> for ValidatedCaCertInfo` (report.rs:401-428). -/
def CaInfo.ofCert (c : ResCert) : Option CaInfo :=
  match c.siaCa with
  | none => none
  | some ca => match c.siaMft with
    | none => none
    | some mft => some ⟨mft, ca, c.siaRrdp, c.rest⟩

/-- `RoaPayload` (report.rs:201-206): AS, IPv6?, address, length, max length. -/
structure Vrp where
  asn : Nat
  v6 : Bool
  addr : Nat
  len : Nat
  maxLen : Option Nat
deriving DecidableEq, Repr

/-- `ValidatedRoa` (report.rs:141-144). -/
structure ValidatedRoa where
  uri : Str
  vrps : List Vrp
deriving DecidableEq, Repr

/-- `ValidatedRoa::make` (report.rs:171-193). -/
def ValidatedRoa.make (uri : Str) (r : RoaPayload) : ValidatedRoa :=
  ⟨uri, r.v4.map (fun p => ⟨r.asn, false, p.1, p.2.1, p.2.2⟩) ++
        r.v6.map (fun p => ⟨r.asn, true, p.1, p.2.1, p.2.2⟩)⟩

/-- `ValidatedAspa` (report.rs:212-216). -/
structure ValidatedAspa where
  uri : Str
  customer : Nat
  providers : List Nat
deriving DecidableEq, Repr

/-- `ValidatedCaCertificate` (report.rs:92-100). -/
structure ValidatedCa where
  info : CaInfo
  children : List (Str × CaInfo)
  routers : List Str
  roas : List ValidatedRoa
  aspas : List ValidatedAspa
  ignored : List Str
  issues : List Issue
deriving DecidableEq, Repr

/-- report.rs:103-113. -/
def ValidatedCa.empty (i : CaInfo) : ValidatedCa := ⟨i, [], [], [], [], [], []⟩

/-- report.rs:135-137 with 374-381. -/
def ValidatedCa.addIssue (c : ValidatedCa) (uri : Str) (k : IssueKind) : ValidatedCa :=
  { c with issues := c.issues ++ [⟨some uri, k⟩] }

/-- `RepositoryReport` (report.rs:47-54). -/
structure RepoReport where
  caCerts : Nat
  roas : Nat
  vrps : Nat
  aspas : Nat
  routers : Nat
  issues : List Issue
deriving DecidableEq, Repr

def RepoReport.zero : RepoReport := ⟨0, 0, 0, 0, 0, []⟩

/-- `process_cert` (report.rs:57-79). -/
def RepoReport.processCert (r : RepoReport) (c : ValidatedCa) : RepoReport :=
  { caCerts := r.caCerts + c.children.length
    roas := r.roas + c.roas.length
    vrps := r.vrps + (c.roas.flatMap (·.vrps)).length
    aspas := r.aspas + c.aspas.length
    routers := r.routers + c.routers.length
    issues := if c.issues = [] then r.issues else r.issues ++ c.issues }

/-- `RepositoryReport::add_other` (report.rs:81-88). -/
def RepoReport.addOther (r o : RepoReport) : RepoReport :=
  { caCerts := r.caCerts + o.caCerts
    roas := r.roas + o.roas
    vrps := r.vrps + o.vrps
    aspas := r.aspas + o.aspas
    routers := r.routers + o.routers
    issues := r.issues ++ o.issues }

/-- `ValidationReport` (report.rs:19-22). -/
structure Report where
  certs : List ValidatedCa
  repos : List (Str × RepoReport)
deriving DecidableEq, Repr

def Report.zero : Report := ⟨[], []⟩

/-- `add_cert` (report.rs:25-31). -/
def Report.addCert (r : Report) (c : ValidatedCa) : Report :=
  { certs := r.certs ++ [c]
    repos := match c.info.siaRrdp with
      | some u => mapInsert r.repos u (((mapGet r.repos u).getD .zero).processCert c)
      | none => r.repos }

/-- One step of the loop at report.rs:36-42. -/
def mergeRepo (m : List (Str × RepoReport)) (e : Str × RepoReport) : List (Str × RepoReport) :=
  match mapGet m e.1 with
  | some x => mapInsert m e.1 (x.addOther e.2)
  | none => mapInsert m e.1 e.2

/-- `ValidationReport::add_other` (report.rs:33-43). -/
def Report.addOther (r o : Report) : Report :=
  { certs := r.certs ++ o.certs
    repos := o.repos.foldl mergeRepo r.repos }

end KSync
