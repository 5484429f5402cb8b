import Verif.Spec.History
import Verif.Spec.Validation

/-! # Vocabulary for entity tags -/

namespace KSync

variable [Ext]

/-- For each place and each session, the highest serial seen so far. -/
abbrev Seen := Str → Uuid → Nat

/-- What is known about the servers during a run.  `tag u e s k` is to mean that `e` is an entity
tag of version `s`, `k` at URI `u`.  The servers give tags accordingly, list deltas up to the
current serial, and do not go back within a session. -/
structure TaggedSources (tag : Str → Str → Uuid → Nat → Prop) (p p' : Seen) (env : Env) : Prop where
  later : ∀ u s, p u s ≤ p' u s
  tags : ∀ k r e b n, env.http k r = .ok (.valid e) (some b) → Ext.parseNotif b = some n →
    tag r.uri e n.session n.serial
  reaches : ∀ k r hdr b n, env.http k r = .ok hdr (some b) → Ext.parseNotif b = some n →
    ReachesSerial n ∧ Serials64 n
  forward : ∀ k r hdr b n, env.http k r = .ok hdr (some b) → Ext.parseNotif b = some n →
    p r.uri n.session ≤ n.serial ∧ n.serial ≤ p' r.uri n.session

/-- Histories with such servers. -/
def TaggedUpdates (tag : Str → Str → Uuid → Nat → Prop) (c : Config) (base name : Str) :
    Seen → FS → Prop :=
  History c (fun _ => Pristine c name)
    (fun p p' _ env fs => GoodSource c base name env fs ∧ TaggedSources tag p p' env)

end KSync
