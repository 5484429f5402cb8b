import Verif.Spec.Party
import Verif.Spec.RsyncHistory

/-!
# Vocabulary for relying parties that use rsync

Used to state C85.
-/

namespace KSync

variable [Ext]

/-- A complete snapshot holds the objects of its version, and all of them have URIs as in `U`. -/
structure TrueSnapshots (life : SourceLife) (content : Uuid → Nat → Objects) (U : RsyncUri → Prop) : Prop where
  objects : ∀ r b, IsSnapshotOf life r b →
    SnapshotOf (Ext.streamSnapshot b).1 (content r.session r.serial)
  uris : ∀ r b, IsSnapshotOf life r b → ∀ e ∈ (Ext.streamSnapshot b).1, U e.1

/-- Each file in the directory of revision `r` is read at some time, but less than the cleanup time after
`t0`. -/
def ReadInTime (life : SourceLife) (c : Config) (base name : Str) (t0 : Time) (p0 : Progress) (f0 : FS)
    (r : RsyncRevision) (got : Path → Option Bytes) : Prop :=
  ∀ q, ∃ p f, MeanwhileRsync life c base name t0 p0 f0 p f ∧ got q = f.file? (r.path c ++ q)

/-- A client comes to the revision `r` through `current` when the RRDP state is of that version, too, and `r` is
not scheduled for removal. -/
structure Enters (c : Config) (f : FS) (r : RsyncRevision) : Prop where
  accord : InAccord c f r
  kept : ∀ st, RsyncRecorded c f st → ∀ d ∈ st.old, d.revision ≠ r

/-- What was read is what the objects are, each where its URI says, and nothing else. -/
structure IsTreeOf (includeHost : Bool) (U : RsyncUri → Prop) (objects : Objects) (got : Path → Option Bytes) :
    Prop where
  right : ∀ u, U u → got (comps (objectRel includeHost u)) = objects u.toStr
  only : ∀ q b, got q = some b → ∃ u, U u ∧ q = comps (objectRel includeHost u)

end KSync
