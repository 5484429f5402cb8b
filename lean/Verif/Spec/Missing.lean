import Verif.Spec.Run

/-!
# Files that cannot be had, and runs that publish nothing (properties C17, C18, C20)
-/

namespace KSync

variable [Ext]

/-- A file with the given hash is neither to be had from the network nor left over in the
staging area. -/
def NotObtained (c : Config) (env : Env) (fs : FS) (base uri : Str) (hash : Hash) : Prop :=
  (∀ src, c.Locates uri src → ∃ u m, src = .uri u m ∧
    ∀ tick hdr b, env.http tick ⟨u, m, none⟩ = .ok hdr (some b) → Ext.sha b ≠ hash) ∧
  ∀ rel, uri = base ++ rel → ∀ h, FileHas fs (c.stagingDir ++ comps rel) h → h ≠ hash

/-- A delta of `n` which is new for `s` cannot be had, and nothing else in `n` has its place. -/
def MissingDelta (c : Config) (env : Env) (fs : FS) (base : Str) (s : RrdpState) (n : Notif) : Prop :=
  ∃ d ∈ n.deltas, NewDelta s n d.serial ∧ NotObtained c env fs base d.uri d.hash ∧
    ∀ r ∈ n.refs, ∀ rel rel', r.1 = base ++ rel → d.uri = base ++ rel' → comps rel = comps rel' →
      r = (d.uri, d.hash)

/-- Nothing outside the staging area changed at any instant, and if the run was a success nothing
changed at all. -/
def Withheld (c : Config) (fs : FS) (r : Except Err Unit × World) : Prop :=
  (∀ f ∈ r.2.crashPoints, ∀ q, ¬ c.stagingDir <+: q → f.leaf q = fs.leaf q) ∧
  (r.1 = .ok () → r.2.crashPoints = [fs])

end KSync
