import Verif.Spec.RunValidation

/-! # Why a new version may be refused -/

namespace KSync

variable [Ext]

/-- The trust anchor's server always answers with a certificate that is valid at `time`, has the key
given in the TAL and says where its files and its manifest are. -/
def Tal.Served (env : Env) (fs : FS) (time : Time) (t : Tal) : Prop :=
  t.source.Answers env fs none (fun b => ∃ c, Ext.validateTa b time = some c ∧ c.key = t.key ∧
    c.siaCa ≠ none ∧ c.siaMft ≠ none)

/-- The certificates that can occur have smaller ranks than their issuers. -/
def RanksDescend (env : Env) (fs : FS) (time : Time) (v : Validator) (rank : ResCert → Nat) : Prop :=
  ∀ issuer i u x obj cert rc, Trusted env fs time v issuer → CaInfo.Of i issuer →
    i.siaRrdp = some u → Available env fs v.repos u x obj → Ext.decodeCert obj = some cert →
    cert.isCa = true → Ext.validateCa cert issuer time = some rc → rank rc < rank issuer

/-- The reasons for which the pre-validation may refuse a new version when no system call fails, `g`
being the files after staging. -/
inductive Refusable (depth : Nat) (c : Config) (base : Str) (env : Env) (fs g : FS) : Prop
  /-- a TAL file cannot be read, or is not a TAL -/
  | tals (h : ∀ tals, ¬ TalsOf g c.talFiles tals)
  /-- what the source offers as a snapshot is not one -/
  | snapshot (etag : Option Str) (n : Notif) (b : Bytes) (h : Offers c env fs etag n)
      (hb : Ext.sha b = n.snapHash) (hp : Ext.parseSnapshot b = none)
  /-- the certificate of a trust anchor cannot be relied upon to be had, or is not valid -/
  | anchor (tals : List Tal) (t : Tal) (k : Nat) (h : TalsOf g c.talFiles tals) (ht : t ∈ tals)
      (hs : ¬ t.Served env g (env.clock k))
  /-- chains of certificates are longer than the stack permits -/
  | deep (v : Validator) (k : Nat) (h : RunValidator c base env fs g v)
      (hd : ∀ rank, RanksDescend env g (env.clock k) v rank →
        ∃ t ∈ v.tals, ∃ ta, TrustAnchor env g (env.clock k) t ta ∧ depth ≤ rank ta)
  /-- `--tal-reject-invalid` is given, and no CA names the repository or one that does has an issue -/
  | results (v : Validator) (k : Nat) (certs : List ValidatedCa) (h : RunValidator c base env fs g v)
      (hv : Validates env g v c.offlineValidation k certs) (hc : ¬ Cleared c certs)

end KSync
