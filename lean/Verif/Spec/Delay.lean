import Verif.Spec.Run

/-! # What the delay before a new notification means -/

namespace KSync

/-- The places written after the delay: the notification file, the file it is prepared in, and the
RRDP state. -/
def AfterDelay (c : Config) (name : Str) (q : Path) : Prop :=
  c.notifPath name <+: q ∨ c.rrdpDir ++ [name ++ ".tmp".toList] <+: q ∨ q = c.rrdpStatePath

/-- A run that started with `fs` and ended as `w` did not wait and did not touch the
notification. -/
def NotAnnounced (c : Config) (name : Str) (fs : FS) (w : World) : Prop :=
  w.slept = [] ∧ ∀ f ∈ w.crashPoints, f.leaf (c.notifPath name) = fs.leaf (c.notifPath name)

/-- A run that started with `fs` and ended as `w` waited once, for `d` seconds, with the file
system as in `g`.  Up to then the notification was the old one, and from then on nothing has
changed but the notification and the state. -/
def Waited (c : Config) (name : Str) (d : Nat) (fs : FS) (w : World) (g : FS) : Prop :=
  ∃ before after, w.slept = [(d, g :: before)] ∧ w.crashPoints = after ++ g :: before ∧
    (∀ f ∈ g :: before, f.leaf (c.notifPath name) = fs.leaf (c.notifPath name)) ∧
    ∀ f ∈ after, ∀ q, ¬ AfterDelay c name q → f.leaf q = g.leaf q

end KSync
