import Verif.Spec.Party

/-!
# Vocabulary for relying parties that poll

Used to state C86.
-/

namespace KSync

variable [Ext]

/-- A relying party asks an installation that follows the source `σ` again and again, before, between and in
the middle of runs (any of which can fail or be killed).  Each time it processes the notification published at
that time, with whatever it receives for the files of it.  `ps` is what it has had, the latest first. -/
inductive Polling (σ : Nat → Notif) (c : Config) (base name : Str) : Nat → FS → List Party → Prop
  | start {i : Nat} {f : FS} : Pristine c name f → Polling σ c base name i f []
  | run {i j depth : Nat} {env : Env} {f f' : FS} {ps : List Party} : Polling σ c base name i f ps →
      FollowingRun σ c base name i j depth env f →
      f' ∈ (process depth c env (World.start f)).2.crashPoints → Polling σ c base name j f' ps
  | poll {i : Nat} {f : FS} {ps : List Party} {n : Notif} {get : Str → Option Bytes} {q : Party} :
      Polling σ c base name i f ps → Published c name f n → Party.Gets get n ps.head? q →
      Polling σ c base name i f (q :: ps)

/-- The relying party has the objects of version `k` of the source. -/
structure Party.Has (content : Uuid → Nat → Objects) (σ : Nat → Notif) (p : Party) (k : Nat) : Prop where
  session : p.session = (σ k).session
  serial : p.serial = (σ k).serial
  objects : ∀ u, p.objects u = content (σ k).session (σ k).serial u

/-- Each of these, the latest first, has the objects of a version of the source up to version `m`; and none has
an earlier version than the ones before. -/
inductive Party.InOrder (content : Uuid → Nat → Objects) (σ : Nat → Notif) : Nat → List Party → Prop
  | none {m : Nat} : Party.InOrder content σ m []
  | one {m k : Nat} {p : Party} {ps : List Party} : k ≤ m → p.Has content σ k →
      Party.InOrder content σ k ps → Party.InOrder content σ m (p :: ps)

end KSync
