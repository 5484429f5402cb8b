import Verif.Spec.Client
import Verif.Spec.Fallback
import Verif.Spec.Mirror
import Verif.Spec.Validation

/-!
# Vocabulary for relying parties

A relying party as RFC 8182, section 3.4, has it.  Used to state C83.
-/

namespace KSync

variable [Ext]

/-- What a relying party has of a repository. -/
structure Party where
  session : Uuid
  serial : Nat
  objects : Objects

/-- The relying party has the objects of the version it believes to have. -/
def Party.Genuine (content : Uuid → Nat → Objects) (p : Party) : Prop :=
  ∀ u, p.objects u = content p.session p.serial u

/-- Getting and applying, one after the other, the deltas of `n` for the serials after `s` up to `t`.  `get` is
what is received for a URI. -/
inductive ByDeltas (get : Str → Option Bytes) (n : Notif) : Nat → Objects → Nat → Objects → Prop
  | done {s : Nat} {o : Objects} : ByDeltas get n s o s o
  | step {s t : Nat} {o o' o'' : Objects} {d : DeltaInfo} {b : Bytes} {els : List DeltaElement} :
      d ∈ n.deltas → d.serial = s + 1 → get d.uri = some b → Ext.sha b = d.hash →
      Ext.parseDelta b = some els → Patch o els o' → ByDeltas get n (s + 1) o' t o'' → ByDeltas get n s o t o''

/-- What a relying party, which had `p` (or nothing), can have after it has processed the notification: all
objects of the snapshot; or what the deltas make of the objects it had. -/
inductive Party.Gets (get : Str → Option Bytes) (n : Notif) : Option Party → Party → Prop
  | snapshot {p : Option Party} {b : Bytes} {els : List (RsyncUri × Bytes)} {o : Objects} :
      get n.snapUri = some b → Ext.sha b = n.snapHash → Ext.parseSnapshot b = some els → SnapshotOf els o →
      Party.Gets get n p ⟨n.session, n.serial, o⟩
  | deltas {p : Party} {o : Objects} : p.session = n.session →
      ByDeltas get n p.serial p.objects n.serial o → Party.Gets get n (some p) ⟨n.session, n.serial, o⟩

/-- Whatever has the hash of the snapshot or of a delta can be parsed. -/
structure Readable (n : Notif) : Prop where
  snapshot : ∀ b, Ext.sha b = n.snapHash → ∃ els, Ext.parseSnapshot b = some els
  deltas : ∀ d ∈ n.deltas, ∀ b, Ext.sha b = d.hash → ∃ els, Ext.parseDelta b = some els

/-- What can be on disk in the life of an installation that follows the source `σ`, which uses its files as in
`life`. -/
def Mirroring (σ : Nat → Notif) (life : SourceLife) (c : Config) (base name : Str) :
    Progress × Nat → FS → Prop :=
  History c (fun _ => Pristine c name) (fun i j depth env f =>
    GoodRun life c base name i.1 j.1 depth env f ∧ FollowingRun σ c base name i.2 j.2 depth env f)

/-- Each file of the notification is requested at some time, but less than the cleanup time after `t0`. -/
def InTime (life : SourceLife) (c : Config) (base name : Str) (t0 : Time) (p0 : Progress) (f0 : FS)
    (n : Notif) (get : Str → Option Bytes) : Prop :=
  ∀ r ∈ n.refs, ∀ rel, r.1 = base ++ rel →
    ∃ p f, Meanwhile life c base name t0 p0 f0 p f ∧ get r.1 = f.file? (c.pubPath rel)

end KSync
