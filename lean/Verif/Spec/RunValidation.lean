import Verif.Spec.Run
import Verif.Spec.Validation

/-! # Vocabulary for the validation in a run -/

namespace KSync

variable [Ext]

/-- `v` is what a run starting with the files `fs` validates with, `g` being the files after staging:
the TALs are those in the configured files; the data of the repositories are those kept by an earlier
run with the same TALs, if they are to be reused, and otherwise there are none; but those of the
repository being synchronised were brought up to date from the staging area. -/
structure RunValidator (c : Config) (base : Str) (env : Env) (fs g : FS) (v : Validator) : Prop where
  frame : Frame (c.stagingDir <+: ·) fs g
  tals : TalsOf g c.talFiles v.tals
  data : ∃ old : Visited, v.repos.fetchers = old.fetchers ∧
    (old = ⟨[(c.notificationUri, c.stagedFetcher base)], []⟩ ∨
      ∃ s v0, Recorded c fs s ∧ s.validator = some v0 ∧ v0.repos = old ∧ v0.tals = v.tals ∧
        ∃ u, (u, c.stagedFetcher base) ∈ old.fetchers) ∧
    (∀ u, u ≠ c.notificationUri → mapGet v.repos.data u = mapGet old.data u) ∧
    ∃ d i j, mapGet v.repos.data c.notificationUri = some d ∧
      Latest env g old c.notificationUri false (env.clock i) j d

/-- The results are such that the version may be published: there is no objection to issues, or there
is a CA naming the repository, and none naming it has an issue. -/
def Cleared (c : Config) (certs : List ValidatedCa) : Prop :=
  c.talRejectInvalid = true → (∃ ca ∈ certs, ca.Names c.notificationUri) ∧
    ∀ ca ∈ certs, ca.Names c.notificationUri → ca.issues = []

/-! ## Requests -/

/-- The request is for the certificate of the trust anchor of a TAL. -/
def ForAnchor (v : Validator) (r : Req) : Prop := ∃ t ∈ v.tals, t.source = .uri r.uri r.insecure ∧ r.etag = none

/-- The request is for the notification file of a repository, not the one being synchronised, named by
a certificate below a trust anchor, or for a file named in such a notification file. -/
def ForRepository (c : Config) (env : Env) (g : FS) (v : Validator) (r : Req) : Prop :=
  ∃ k issuer i u, Trusted env g (env.clock k) v issuer ∧ CaInfo.Of i issuer ∧
    i.siaRrdp = some u ∧ u ≠ c.notificationUri ∧ r.insecure = true ∧
    (r.uri = u ∨ r.etag = none ∧ ∃ n h, (⟨u, none, true⟩ : Fetcher).Finds env g n ∧ (r.uri, h) ∈ n.refs)

end KSync
