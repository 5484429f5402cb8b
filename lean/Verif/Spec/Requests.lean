import Verif.Spec.Run

/-!
# The requests with which a version is fetched
-/

namespace KSync

variable [Ext]

/-- The request asks, unconditionally, for the file with this URI. -/
def Req.Fetches (r : Req) (c : Config) (uri : Str) : Prop :=
  c.Locates uri (.uri r.uri r.insecure) ∧ r.etag = none

/-- The requests for the files of `n`, given what is held: at most one for the snapshot, at most
one for each delta, from the lowest serial up, none for a delta held and none for a file that is
`spared`. -/
structure VersionRequests (c : Config) (s : RrdpState) (n : Notif) (spared : Str → Hash → Prop)
    (snap : List Req) (deltas : List (DeltaInfo × Req)) : Prop where
  one : snap.length ≤ 1
  snapshot : ∀ r ∈ snap, r.Fetches c n.snapUri ∧ ¬ spared n.snapUri n.snapHash
  listed : ∀ p ∈ deltas, p.1 ∈ n.deltas ∧ p.2.Fetches c p.1.uri ∧ ¬ spared p.1.uri p.1.hash
  once : deltas.Pairwise (fun a b => a.1.serial < b.1.serial)
  missing : ∀ p ∈ deltas, NewDelta s n p.1.serial

/-- In their order: at most one request for the notification file and, if it announces a version
which is not held, the requests for the files of that version. -/
def RunRequests (c : Config) (env : Env) (fs : FS) (s : RrdpState) (spared : Str → Hash → Prop)
    (l : List Req) : Prop :=
  ∃ first snap deltas, l = first ++ snap ++ deltas.map (·.2) ∧ first.length ≤ 1 ∧
    (∀ r ∈ first, c.Locates c.notificationUri (.uri r.uri r.insecure) ∧
      r.etag = s.source.etag) ∧
    ((snap = [] ∧ deltas = []) ∨
      ∃ n0 n, Offers c env fs s.source.etag n0 ∧ Limited c n0 n ∧ NewVersion s n ∧
        VersionRequests c s n spared snap deltas)

/-- The file with this URI and hash is in the staging directory. -/
def InStaging (c : Config) (base : Str) (fs : FS) (uri : Str) (h : Hash) : Prop :=
  ∃ rel, uri = base ++ rel ∧ FileHas fs (c.stagingDir ++ comps rel) h

end KSync
