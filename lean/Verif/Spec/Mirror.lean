import Verif.Spec.History

/-!
# Vocabulary for following a source

A source is the sequence of the notifications it has in its life.
-/

namespace KSync

variable [Ext]

/-- A source as RFC 8182 has it.  Every notification lists one delta for a serial, and lists deltas up
to its serial if it lists any.  Within a session the serial does not go down, and a later notification
lists no delta, up to an earlier serial, that the earlier notification did not list: it drops old deltas
and adds new ones, but changes none and takes none up again. -/
structure FollowsRfc (σ : Nat → Notif) : Prop where
  reaches : ∀ k, ReachesSerial (σ k)
  once : ∀ k, ∀ d ∈ (σ k).deltas, ∀ d' ∈ (σ k).deltas, d.serial = d'.serial → d = d'
  forward : ∀ k k', k ≤ k' → (σ k).session = (σ k').session → (σ k).serial ≤ (σ k').serial
  keeps : ∀ k k', k ≤ k' → (σ k).session = (σ k').session →
    ∀ d ∈ (σ k').deltas, d.serial ≤ (σ k).serial → d ∈ (σ k).deltas

/-- The source never changes the notification of a version. -/
def NewSerialPerChange (σ : Nat → Notif) : Prop :=
  ∀ k k', (σ k).session = (σ k').session → (σ k).serial = (σ k').serial → σ k = σ k'

/-- A run during which the source goes on from notification `i` to notification `j`. -/
structure FollowingRun (σ : Nat → Notif) (c : Config) (base name : Str) (i j : Nat) (depth : Nat)
    (env : Env) (fs : FS) : Prop where
  source : GoodSource c base name env fs
  later : i ≤ j
  offers : ∀ etag n, Offers c env fs etag n → ∃ k, i ≤ k ∧ k ≤ j ∧ n = σ k

/-- What can be on disk at a server that follows the source, which has got to notification `i`. -/
def Following (σ : Nat → Notif) (c : Config) (base name : Str) : Nat → FS → Prop :=
  History c (fun _ => Pristine c name) (FollowingRun σ c base name)

/-- `n` is the notification `m` of the source, with the deltas from the latest down, as many as the
configuration allows. -/
def Mirrors (c : Config) (m n : Notif) : Prop :=
  ∃ ds, IsLimit c.rrdpMaxDeltas m.deltas ds ∧ n = { m with deltas := ds.reverse }

end KSync
