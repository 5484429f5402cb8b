import Verif.Spec.RsyncHistory

/-!
# Vocabulary for clients that turn from RRDP to rsync

Used to state C78.
-/

namespace KSync

variable [Ext]

/-- A run over a source that names its files sensibly and whose versions move forward: how far the source
has got, and which versions it has announced so far. -/
structure AnnouncedRun (age : Uuid → Nat) (c : Config) (base name : Str)
    (i j : Version × (Notif → Prop)) (depth : Nat) (env : Env) (fs : FS) : Prop where
  forward : ForwardRun age c base name i.1 j.1 depth env fs
  sound : SoundSource c base name env fs
  known : ∀ n, i.2 n ∨ Announces c base name env fs n → j.2 n

/-- What can be on disk in the life of an installation that starts with nothing. -/
def ForwardLifetime (age : Uuid → Nat) (c : Config) (base name : Str) :
    Version × (Notif → Prop) → FS → Prop :=
  History c (fun _ f => Unused c name f ∧ RsyncUnused c f) (AnnouncedRun age c base name)

/-- What can be on disk later. -/
def Later (age : Uuid → Nat) (c : Config) (base name : Str) (i : Version × (Notif → Prop)) (f : FS) :
    Version × (Notif → Prop) → FS → Prop :=
  History c (fun j g => j = i ∧ g = f) (AnnouncedRun age c base name)

/-- What can be on disk later, for an installation whose runs are in time. -/
def TimelyLater (life : SourceLife) (c : Config) (base name : Str) (p : Progress) (f : FS) :
    Progress → FS → Prop :=
  History c (fun q g => q = p ∧ g = f) (TimelyRun life c base name)

/-- The notification `n` is in place. -/
def Published (c : Config) (name : Str) (f : FS) (n : Notif) : Prop :=
  ∃ t, f.leaf (c.notifPath name) = some (.file (Ext.writeNotif n) t)

end KSync
