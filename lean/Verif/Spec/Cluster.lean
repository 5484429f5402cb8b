import Verif.Spec.Party

/-!
# Vocabulary for several servers with the same content

Each of them has its own disk and follows the same source.  Used to state C84.
-/

namespace KSync

variable [Ext]

/-- A limit `a` for the number of deltas is not above the limit `b`. -/
def AtMost (a b : Option Nat) : Prop :=
  ∀ m', b = some m' → ∃ m, a = some m ∧ m ≤ m'

/-- `f` is a disk of a server that has the version: it has announced it, and only runs have gone on since
that read the clock less than the cleanup time later; or it is about to announce it, and waits. -/
inductive HasVersion (σ : Nat → Notif) (life : SourceLife) (c : Config) (base name : Str) (session : Uuid)
    (serial : Nat) : FS → Prop
  | announced {i : Progress × Nat} {p : Progress} {f0 f : FS} {n : Notif} {t0 : Time} :
      Mirroring σ life c base name i f0 → Published c name f0 n → n.session = session → n.serial = serial →
      Meanwhile life c base name t0 i.1 f0 p f → HasVersion σ life c base name session serial f
  | waiting {i j : Progress × Nat} {depth : Nat} {env : Env} {f0 f1 f : FS} {n : Notif} {before : List FS} :
      Mirroring σ life c base name i f0 → 0 < c.rrdpNotifyDelay →
      GoodRun life c base name i.1 j.1 depth env f0 → FollowingRun σ c base name i.2 j.2 depth env f0 →
      (process depth c env (World.start f0)).2.slept = [(c.rrdpNotifyDelay, f :: before)] →
      f1 ∈ (process depth c env (World.start f0)).2.crashPoints → Published c name f1 n →
      f1.leaf (c.notifPath name) ≠ f0.leaf (c.notifPath name) → n.session = session → n.serial = serial →
      HasVersion σ life c base name session serial f

/-- Each file of the notification is requested from some of the servers, which has the version then. -/
def FromServers (σ : Nat → Notif) (life : SourceLife) (cs : Nat → Config) (base name : Str) (n : Notif)
    (get : Str → Option Bytes) : Prop :=
  ∀ r ∈ n.refs, ∀ rel, r.1 = base ++ rel →
    ∃ k f, HasVersion σ life (cs k) base name n.session n.serial f ∧ get r.1 = f.file? ((cs k).pubPath rel)

/-- Servers with the same content: wherever their directories are and whatever other options they have, they
use the same notification URI, and no limit of 0 deltas. -/
structure Cluster (cs : Nat → Config) (base name : Str) : Prop where
  layout : ∀ k, Layout (cs k) base name
  objects : ∀ k, (cs k).rsyncEnabled = true → CleanObjects (cs k).rsyncIncludeHost
  positive : ∀ k, (cs k).rrdpMaxDeltas ≠ some 0

end KSync
