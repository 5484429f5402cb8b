import Verif.Spec.Party
import Verif.Spec.Restart

/-!
# Vocabulary for runs that get their files from another installation

Used to state C91.
-/

namespace KSync

variable [Ext]

/-- What a web server answers to a request without an entity tag, for a file with this content or for no
file. -/
def answerWith (hdr : EtagHdr) : Option Bytes → HttpResp
  | some b => .ok hdr (some b)
  | none => .other 404

/-- A run with the configuration `c` gets its files from a web server for the RRDP directory of the installation
`cp`: at their own URIs, or where the source in the configuration says.  The notification is read when the disk
there is `x`.  Each of the other files is read at some time, but less than the cleanup time of that installation
after `t0`; runs may go on there meanwhile. -/
structure ServedBy (life : SourceLife) (cp : Config) (base name : Str) (t0 : Time) (p0 : Progress) (x : FS)
    (c : Config) (env : Env) : Prop where
  notification : ∃ v m, c.Locates (base ++ name) (.uri v m) ∧ ∀ tick, ∃ hdr, hdr ≠ .invalid ∧
    env.http tick ⟨v, m, none⟩ = answerWith hdr (x.file? (cp.notifPath name))
  files : ∀ rel, rel ≠ name → ∃ v m, c.Locates (base ++ rel) (.uri v m) ∧ ∀ tick, ∃ hdr p y, hdr ≠ .invalid ∧
    Meanwhile life cp base name t0 p0 x p y ∧
    env.http tick ⟨v, m, none⟩ = answerWith hdr (y.file? (cp.pubPath rel))

end KSync
